import Verif.Vm.PolishLemmas
import Verif.Vm.SolveRun

/-!
# `polish` on memory computes `polish` of the solver layer: the call
-/

set_option linter.unusedSectionVars false
namespace Osqp.Vm
open Csc Spec
variable {L L' K : Type*} [Field K] [LinearOrder K] [IsStrictOrderedRing K] {d : Dims}
variable {F : Fix L K} {R : LinSys d K → L → Prop} {M0 M : Mach L K} {s s' : Solver d K} {c c' : Scr d K}

theorem formAred_ok (hm : F.m = d.m) (h : Sh F R M0 s c M) : Ok (formAred F M) fun a =>
    Holds a.1 d.m (extF (activeFlags s.work.data.l s.work.data.u s.work.z s.work.y)) ∧
    a.2.1 = (picked (activeFlags s.work.data.l s.work.data.u s.work.z s.work.y) : ℤ) ∧
    RedOf s.work.data (activeFlags s.work.data.l s.work.data.u s.work.z s.work.y) a.2.2 := by
  unfold formAred
  rw [hm]
  refine .bind (rawOf_ok (h.mem .z _ rfl)) fun z hz => ?_
  refine .bind (rawOf_ok (h.mem .y _ rfl)) fun y hy => ?_
  refine .bind (rawOf_ok (h.mem .l _ rfl)) fun l hl => ?_
  refine .bind (rawOf_ok (h.mem .u _ rfl)) fun u hu => ?_
  refine .bind (guess_ok hz hy hl hu) fun r hr => ?_
  obtain ⟨A, e, hA⟩ := red_ok h.A hr.1
  exact ⟨_, by rw [e]; rfl, hr.1, hr.2, hA⟩

theorem formRhs_ok (hm : F.m = d.m) (h : Sh F R M0 s c M) {flags : Fin d.m → ℤ} (hf : ∀ i, flags i = -1 ∨ flags i = 0 ∨ flags i = 1) {fb : Buf ℤ} (hb : Holds fb d.m (extF flags)) :
    Ok (formRhs (d.n : ℤ) ((d.n : ℤ) + (picked flags : ℤ)) F fb M) fun b =>
      Holds b (d.n + picked flags) (cat d.n (Csc.ext (formRhsRed s.work.data flags).1) (formRhsRed s.work.data flags).2) := by
  unfold formRhs
  rw [hm]
  refine .bind (rawOf_ok (h.mem .q _ rfl)) fun q hq => ?_
  refine .bind (rawOf_ok (h.mem .l _ rfl)) fun l hl => ?_
  refine .bind (rawOf_ok (h.mem .u _ rfl)) fun u hu => ?_
  exact fill_rhs hf s.work.data hb hq hl hu

theorem holds_arr {b : Buf K} {n : ℕ} {f : Vec K n} {g : ℕ → K} (h : Holds b n g) (hg : ∀ k : Fin n, g k = f k) : Arr b f :=
  ⟨h.1, fun k => by rw [h.2 k k.2, hg]⟩

theorem storePol_ok (hm : F.m = d.m) (h : Sh F R M0 s c M) {flags : Fin d.m → ℤ} {fb : Buf ℤ} (hb : Holds fb d.m (extF flags)) (hn : picked flags ≠ 0) {sol : Buf K} {S : Vec K d.n × (ℕ → K)}
    (hs : Holds sol (d.n + picked flags) (cat d.n (Csc.ext S.1) S.2)) :
    let p := polishPoint s.work.data flags S
    Ok (storePol F (d.n : ℤ) fb (picked flags : ℤ) sol M) (Sh F R M0 s (c.pt p.1 p.2.1 p.2.2)) := by
  intro p
  unfold storePol
  have hx : Arr (part sol 0 (d.n : ℤ)) S.1 := by
    have := (part_holds hs (lo := 0) (len := d.n) (by omega)).1
    refine holds_arr this fun k => ?_
    simp only [zero_add, cat, if_pos k.2, Csc.ext, dif_pos k.2]
  have hy : Holds (part sol (d.n : ℤ) (picked flags : ℤ)) (picked flags) S.2 :=
    (part_holds hs (lo := d.n) (len := picked flags) le_rfl).1.congr fun k hk => by
      simp only [cat]; rw [if_neg (by omega), Nat.add_sub_cancel_left]
  refine .bind (h.putPol (k := .pX) rfl (f := S.1) (c' := { c with pX := some S.1 }) (fromRaw_ok (h.room .pX rfl) hx) vv) fun M h => ?_
  refine .bind (h.mulPol (a := .pX) (k := .pZ) rfl (by decide) (by decide) rfl (f := spMul d.A s.work.data.A S.1)
    (c' := { c with pX := some S.1, pZ := some (spMul d.A s.work.data.A S.1) }) (fun x y hx hy => refine_axpy h.A hx hy) vv) fun M h => ?_
  refine .bind (P := Sh F R M0 s (c.pt S.1 (spMul d.A s.work.data.A S.1) (ypolOfYred flags S.2))) ?_ fun M h => ?_
  · unfold ypolFrom
    rw [if_neg (by exact_mod_cast hn), hm]
    refine .bind (ypol_fill hb hy) fun r hr => ?_
    exact h.putPol (k := .pY) rfl (f := ypolOfYred flags S.2) (fromRaw_ok (h.room .pY rfl) hr) vv
  refine .bind (h.putPol (k := .pY) rfl (f := vPlus (ypolOfYred flags S.2) (spMul d.A s.work.data.A S.1))
    (c' := c.pt S.1 (spMul d.A s.work.data.A S.1) (vPlus (ypolOfYred flags S.2) (spMul d.A s.work.data.A S.1)))
    (plus_holds (h.room .pY rfl) (h.mem .pY _ rfl) (h.lay.fits _ _) (h.mem .pZ _ rfl) (h.lay.use _ _)) vv) fun M h => ?_
  refine .bind (h.putPol (k := .pZ) rfl (f := p.2.1)
    (c' := c.pt S.1 p.2.1 (vPlus (ypolOfYred flags S.2) (spMul d.A s.work.data.A S.1)))
    (boundVec_holds (h.room .pZ rfl) (h.mem .pY _ rfl) (h.lay.use _ _) (h.mem .l _ rfl) (h.lay.use _ _) (h.mem .u _ rfl) (h.lay.use _ _)) vv) fun M h => ?_
  exact h.putPol (k := .pY) rfl (f := p.2.2)
    (minus_holds (h.room .pY rfl) (h.mem .pY _ rfl) (h.lay.fits _ _) (h.mem .pZ _ rfl) (h.lay.use _ _)) vv

theorem Sh.polished (h : Sh F R M0 s c M) (v : ℤ) : Sh F R M0 { s with info := { s.info with status_polish := v } } c (M.polished v) := h.upd rfl vv rr rfl

/-- The second half of `polish` of the solver layer. -/
def judge (cfg : Cfg) (env : Env d K) (s : Solver d K) (pt : Vec K d.n × Vec K d.m × Vec K d.m) : Solver d K × ℤ :=
  let w := computeReport s pt.1 pt.2.1 pt.2.2
  let s := w.1
  let r := w.2
  let s := if cfg.profiling then
      let r := toc env s
      let t := r.1
      let s := r.2
      { s with info := { s.info with polish_time := t } }
    else s
  let s := { s with info := { s.info with rel_kkt_error := relKkt r } }
  if polishAccept r.pres r.dres s.info.prim_res s.info.dual_res then
    ({ s with
        info := { s.info with obj_val := r.obj, dual_obj_val := r.dobj, duality_gap := r.gap,
                              prim_res := r.pres, dual_res := r.dres, status_polish := Pol.success }
        work := { s.work with x := pt.1, z := pt.2.1, y := pt.2.2 } }, 0)
  else ({ s with info := { s.info with status_polish := Pol.failed } }, 0)

theorem judgePol_ok {cfg : Cfg} {env : Env d K} (hF : FixIs cfg env F) (pt : Vec K d.n × Vec K d.m × Vec K d.m) (h : Sh F R M0 s (c.pt pt.1 pt.2.1 pt.2.2) M) :
    Ok (judgePol F M) fun r => Sh F R M0 (judge cfg env s pt).1 (c.pt pt.1 pt.2.1 pt.2.2) r.1 ∧ r.2 = (judge cfg env s pt).2 := by
  unfold judgePol judge
  obtain ⟨x, z, y⟩ := pt
  refine .bind (withPol_ok hF.m h) fun r hr => ?_
  obtain ⟨h, e⟩ := hr
  dsimp only
  rw [e, hF.cfg]
  generalize computeReport s x z y = q at h ⊢
  obtain ⟨t, q⟩ := q
  dsimp only at h ⊢
  clear e
  obtain ⟨M, r⟩ := r
  dsimp only at h ⊢
  -- the time
  set M1 := if cfg.profiling = true then (M.toc F).2.upd fun g => { g with info := { g.info with polish_time := (M.toc F).1 } } else M with hM1
  set s1 := if cfg.profiling = true then ({ (Osqp.toc env t).2 with info := { (Osqp.toc env t).2.info with polish_time := (Osqp.toc env t).1 } } : Solver d K) else t with hs1
  have h1 : Sh F R M0 s1 (c.pt x z y) M1 := by
    rw [hM1, hs1]
    split_ifs
    · obtain ⟨e, h2⟩ := h.toc hF.clk
      exact h2.upd (by rw [e]) vv rr rfl
    · exact h
  clear_value M1 s1
  set M2 := M1.upd fun g => { g with info := { g.info with rel_kkt_error := relKkt q } } with hM2
  have h2 : Sh F R M0 ({ s1 with info := { s1.info with rel_kkt_error := relKkt q } } : Solver d K) (c.pt x z y) M2 := h1.upd rfl vv rr rfl
  clear_value M2
  rw [h2.g]
  dsimp only
  split_ifs with ca
  · have h3 := h2.upd (f := fun g : Scal K => { g with info := { g.info with
      obj_val := q.obj, dual_obj_val := q.dobj, duality_gap := q.gap, prim_res := q.pres, dual_res := q.dres, status_polish := Pol.success } })
      (s' := { s1 with info := { s1.info with rel_kkt_error := relKkt q, obj_val := q.obj, dual_obj_val := q.dobj, duality_gap := q.gap, prim_res := q.pres, dual_res := q.dres, status_polish := Pol.success } })
      (c' := c.pt x z y) rfl vv rr rfl
    generalize ht3 : ({ s1 with info := { s1.info with rel_kkt_error := relKkt q, obj_val := q.obj, dual_obj_val := q.dobj, duality_gap := q.gap, prim_res := q.pres, dual_res := q.dres, status_polish := Pol.success } } : Solver d K) = t3 at h3
    refine .bind (h3.put (k := .x) rfl (f := x) (s' := t3.xx x) (c' := c.pt x z y)
      (copy_holds (h3.mem .x _ rfl).toRoom (h3.mem .pX _ rfl) (h3.lay.use _ _)) vv rfl rr) fun M h => ?_
    refine .bind (h.put (k := .z) rfl (f := z) (s' := (t3.xx x).zz z) (c' := c.pt x z y)
      (copy_holds (h.mem .z _ rfl).toRoom (h.mem .pZ _ rfl) (h.lay.use _ _)) vv rfl rr) fun M h => ?_
    refine .bind (h.put (k := .y) rfl (f := y) (s' := ((t3.xx x).zz z).yy y) (c' := c.pt x z y)
      (copy_holds (h.mem .y _ rfl).toRoom (h.mem .pY _ rfl) (h.lay.use _ _)) vv rfl rr) fun M h => ?_
    subst ht3
    exact .pure ⟨h, rfl⟩
  · exact .pure ⟨h2.polished _, rfl⟩

theorem polish_eq (cfg : Cfg) (env : Env d K) (s : Solver d K) : Osqp.polish cfg env s =
    (let D := s.work.data
     let flags := activeFlags D.l D.u s.work.z s.work.y
     if nActive flags = 0 then ({ s with info := { s.info with status_polish := Pol.noActiveSet } }, 0)
     else if env.polFactor D flags s.settings.sigma < d.n then ({ s with info := { s.info with status_polish := Pol.linsysError } }, Err.nonCvx)
     else judge cfg env s (polishPoint D flags (refineLoop env D flags s.settings.sigma (formRhsRed D flags) s.settings.polish_refine_iter.toNat
        (env.polSolve D flags s.settings.sigma (formRhsRed D flags).1 (formRhsRed D flags).2)))) := rfl

/-- `polish` in memory does what the solver layer says. -/
theorem polish_ok {cfg : Cfg} {env : Env d K} {G : PolLib L' K} {T : Data d K → (Fin d.m → ℤ) → K → L' → Prop} (hG : PolImpl env G T) (hF : FixIs cfg env F) (h : Shows F R s M) :
    ∃ M', polishMem G (d.n : ℤ) F M = some (M', (Osqp.polish cfg env s).2) ∧ Shows F R (Osqp.polish cfg env s).1 M' ∧ Kept F.xz M M' := by
  obtain ⟨c, h⟩ := h.sh
  suffices H : Ok (polishMem G (d.n : ℤ) F M) fun r => ∃ c', Sh F R M (Osqp.polish cfg env s).1 c' r.1 ∧ r.2 = (Osqp.polish cfg env s).2 by
    obtain ⟨r, e, c', h', e2⟩ := H
    exact ⟨r.1, by rw [e, ← e2], h'.shows.1, h'.shows.2⟩
  rw [polish_eq]
  unfold polishMem
  refine .bind (formAred_ok hF.m h) fun a ha => ?_
  obtain ⟨fb, nact, A⟩ := a
  obtain ⟨hb, hn, hA⟩ := ha
  dsimp only at hb hn hA ⊢
  set flags := activeFlags s.work.data.l s.work.data.u s.work.z s.work.y with hfl
  have hna : nActive flags = picked flags := nActive_eq flags
  subst hn
  rw [hna]
  by_cases c0 : picked flags = 0
  · rw [if_pos (by exact_mod_cast c0), if_pos c0]
    exact .pure ⟨c, h.polished _, rfl⟩
  rw [if_neg (by exact_mod_cast c0), if_neg c0, h.g]
  obtain ⟨g1, g2⟩ := hG.init s.work.data flags s.settings.sigma h.P hA
  by_cases c1 : env.polFactor s.work.data flags s.settings.sigma < d.n
  · obtain ⟨o, e⟩ := g1 c1
    rw [if_pos c1]
    refine .val e ?_
    rw [if_pos (by show Err.nonCvx ≠ 0; decide)]
    exact .pure ⟨c, h.polished _, rfl⟩
  obtain ⟨l, e, hT⟩ := g2 c1
  rw [if_neg c1]
  refine .val e ?_
  rw [if_neg (by simp)]
  refine .val (show (some l) = some l from rfl) ?_
  refine .bind (formRhs_ok hF.m h (activeFlags_vals _ _ _ _) hb) fun rhs hr => ?_
  have hsz : d.n + picked flags ≤ (Buf.fresh ((d.n : ℤ) + (picked flags : ℤ)) : Buf K).size := by
    generalize picked flags = t
    rw [← Nat.cast_add]; exact fresh_le _
  obtain ⟨s0, e0, hs0⟩ := copyVec_holds (c := Buf.fresh ((d.n : ℤ) + (picked flags : ℤ))) (n := d.n + picked flags) hsz hr
  push_cast at e0
  refine .val e0 ?_
  obtain ⟨s1, e1, hs1⟩ := hG.solve _ _ _ l hT _ _ s0 (fun k hk => rhs_out _ _ hk) hs0
  refine .val e1 ?_
  refine .bind (refine_ok hG hT h.P hA hs1 hr s.settings.polish_refine_iter) fun sol hs => ?_
  refine .bind (storePol_ok hF.m h hb c0 hs) fun M h => ?_
  exact (judgePol_ok hF _ h).mono fun r hr => ⟨_, hr⟩

end Osqp.Vm
