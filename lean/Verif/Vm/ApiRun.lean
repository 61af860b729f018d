import Verif.Vm.ApiSetup
import Verif.Props.SolveMem

/-!
# One call, and histories of calls
-/

set_option linter.unusedSectionVars false
namespace Osqp.Vm
open Csc Spec
variable {L K : Type*} [Field K] [LinearOrder K] [IsStrictOrderedRing K] {d : Dims}
variable {cfg : Cfg} {env : Env d K} {E : Lib L K} {R : LinSys d K → L → Prop} {s s' : Solver d K} {o o' : Obj L K} {c : Scr d K}

/-- The arrays a call must not touch. -/
def Quiet (M : Mach L K) (T : ℕ → Prop) (b : ℕ) : Prop := Free M b ∧ ¬ T b

theorem Stands.fixIs (hE : LibIs cfg env E R) (h : Stands E R s o) : FixIs cfg env (E.fix o) := ⟨hE.cfg, h.m, hE.sqrt, hE.clk, hE.intr⟩

theorem Stands.lv (h : Stands E R s o) (T : ℕ → Prop) : ∃ c, Lv (E.fix o) R (Quiet o.M T) o.M s c o.M := by
  obtain ⟨c, hc⟩ := h.shows.sh
  exact ⟨c, hc.lv fun b hb => hb.1⟩

theorem Lv.alone {T : ℕ → Prop} (h : Lv (E.fix o') R (Quiet o.M T) o.M s' c o'.M) : Alone T o o' := by
  refine ⟨fun b => ?_, h.sol, fun b hb ht => h.kept b ⟨fun k _ hk => hb ⟨k, hk⟩, ht⟩⟩
  have hf := h.free b
  constructor
  · rintro ⟨k, hk⟩
    by_contra hn
    rcases hs : k.sol with _ | _
    · exact hf.2 (fun j _ hj => hn ⟨j, hj⟩) k hs hk
    · rw [h.sol k hs] at hk; exact hn ⟨k, hk⟩
  · rintro ⟨k, hk⟩
    by_contra hn
    rcases hs : k.sol with _ | _
    · exact hf.1 (fun j _ hj => hn ⟨j, hj⟩) k hs hk
    · rw [← h.sol k hs] at hk; exact hn ⟨k, hk⟩

theorem Done.both {T : ℕ → Prop} (h : Done E R (Quiet o.M T) o.M s' o') : Stands E R s' o' ∧ Alone T o o' := by
  obtain ⟨hn, hm, c, h⟩ := h
  exact ⟨⟨hn, hm, h.sh.shows.1⟩, h.alone⟩

theorem Kept.alone {T : ℕ → Prop} (lay : Layout d.n d.m o.M.W o.xz) {M' : Mach L K} (h : Kept o.xz o.M M') : Alone T o { o with M := M' } := by
  have hx := lay.len_xt.2.2
  refine ⟨fun b => ?_, fun k hk => ?_, fun b hb _ => h.mem b (fun e => hb ⟨.xt, by rw [hx, e]⟩) fun k _ e => hb ⟨k, e.symm⟩⟩
  · rcases h.ptrs with e | ⟨e1, e2, e3, e4, e5⟩
    · unfold Owned; dsimp only; rw [e]
    · constructor
      · rintro ⟨k, hk⟩
        dsimp only at hk
        by_cases c1 : k = .x
        · subst c1; exact ⟨.xPrev, by rw [← e1]; exact hk⟩
        by_cases c2 : k = .xPrev
        · subst c2; exact ⟨.x, by rw [← e2]; exact hk⟩
        by_cases c3 : k = .z
        · subst c3; exact ⟨.zPrev, by rw [← e3]; exact hk⟩
        by_cases c4 : k = .zPrev
        · subst c4; exact ⟨.z, by rw [← e4]; exact hk⟩
        exact ⟨k, by rw [← e5 k c1 c2 c3 c4]; exact hk⟩
      · rintro ⟨k, hk⟩
        by_cases c1 : k = .x
        · subst c1; exact ⟨.xPrev, by dsimp only; rw [e2]; exact hk⟩
        by_cases c2 : k = .xPrev
        · subst c2; exact ⟨.x, by dsimp only; rw [e1]; exact hk⟩
        by_cases c3 : k = .z
        · subst c3; exact ⟨.zPrev, by dsimp only; rw [e4]; exact hk⟩
        by_cases c4 : k = .zPrev
        · subst c4; exact ⟨.z, by dsimp only; rw [e3]; exact hk⟩
        exact ⟨k, by dsimp only; rw [e5 k c1 c2 c3 c4]; exact hk⟩
  · rcases h.ptrs with e | ⟨e1, e2, e3, e4, e5⟩
    · exact congrFun e k
    · exact e5 k (by rintro rfl; cases hk) (by rintro rfl; cases hk) (by rintro rfl; cases hk) (by rintro rfl; cases hk)

theorem ArgIs.of {n : ℕ} {a : Option Ref} {v : Option (Vec K n)} (h : ArgIs o a v) : ArgOf (Quiet o.M fun _ => False) o.M a v := by
  rcases a with _ | a <;> rcases v with _ | v
  any_goals first | exact False.elim h | skip
  · trivial
  · exact ⟨h.1, h.2, fun h => h⟩

theorem onMach_ok {r : Option (Mach L K × ℤ)} {Q : Mach L K → Prop} {code : ℤ} (h : Ok r fun r => Q r.1 ∧ r.2 = code) :
    ∃ M', onMach o r = some ({ o with M := M' }, code) ∧ Q M' := by
  obtain ⟨⟨M', ef⟩, e, h1, h2⟩ := h
  exact ⟨M', by rw [onMach, e]; dsimp only at h2; rw [← h2]; rfl, h1⟩

theorem getSolution_both {S : Dst} (h : Stands E R s o) (hd : DstIs d o S) (sol : Solution d K) (px : Option (Vec K d.n)) (py ppc : Option (Vec K d.m))
    (pdc : Option (Vec K d.n)) (hx : ∀ v, px = some v → Has o.M.σ S.x d.n v) (hy : ∀ v, py = some v → Has o.M.σ S.y d.m v)
    (hpc : ∀ v, ppc = some v → Has o.M.σ S.pc d.m v) (hdc : ∀ v, pdc = some v → Has o.M.σ S.dc d.n v) :
    ∃ M', onMach o (getSolution S o.M) = some ({ o with M := M' }, 0) ∧ ∃ c pc dc,
      Ld (E.fix o) R (Quiet o.M (MOp.target (K := K) (.getSolution S))) o.M S (osqpGetSolution s sol).1 c
        (slots (some (osqpGetSolution s sol).2.1.x) (some (osqpGetSolution s sol).2.1.y) pc dc) M' ∧
      (CertsOut s.info ∨ ppc = some sol.prim_inf_cert → pc = some (osqpGetSolution s sol).2.1.prim_inf_cert) ∧
      (CertsOut s.info ∨ pdc = some sol.dual_inf_cert → dc = some (osqpGetSolution s sol).2.1.dual_inf_cert) := by
  obtain ⟨c, hl⟩ := h.lv (MOp.target (K := K) (.getSolution S))
  have hL : Ld (E.fix o) R (Quiet o.M (MOp.target (K := K) (.getSolution S))) o.M S s c (slots px py ppc pdc) o.M := by
    refine ⟨hl, rfl, ⟨fun t t' ht => ?_, fun k t => ?_, fun t ht => ht.2 ?_⟩, fun t => ?_, fun t f hf => ?_⟩
    · have sy : ∀ {a b : Ref}, Apart a b → Apart b a := fun h => h.imp Ne.symm Or.symm
      cases t <;> cases t'
      any_goals exact absurd rfl ht
      exacts [hd.xy, hd.xpc, hd.xdc, sy hd.xy, hd.ypc, hd.ydc, sy hd.xpc, sy hd.ypc, hd.pcdc, sy hd.xdc, sy hd.ydc, sy hd.pcdc]
    · obtain ⟨h1, h2, h3, h4⟩ := hd.own k
      cases t <;> assumption
    · cases t
      · exact .inl rfl
      · exact .inr (.inl rfl)
      · exact .inr (.inr (.inl rfl))
      · exact .inr (.inr (.inr rfl))
    · cases t
      · exact hd.x
      · exact hd.y
      · exact hd.pc
      · exact hd.dc
    · cases t
      · exact hx f hf
      · exact hy f hf
      · exact hpc f hf
      · exact hdc f hf
  exact onMach_ok (getSolution_ok sol hL)

theorem pair_inj {α β : Type*} {r : α × β} {a : α} {b : β} (e : some r = some (a, b)) : r.1 = a ∧ r.2 = b := by
  have := Option.some.inj e
  exact ⟨congrArg Prod.fst this, congrArg Prod.snd this⟩

theorem step_ok (hE : LibIs cfg env E R) (hs : SqrtPos env) (h : Stands E R s o) {op : MOp K} {op' : Op d K} (hr : Reads o op op')
    (hp : op' = .solve → s.settings.polishing = 0 ∨ PolishIs cfg env (E.fix o) R) {code : ℤ} (e : apiStep cfg env s op' = some (s', code)) :
    ∃ o', run E o op = some (o', code) ∧ Stands E R s' o' ∧ Alone op.target o o' := by
  have hF := h.fixIs hE
  have hI := hE.calls o
  have lay := h.shows.lay
  rcases op with _ | ⟨q, l, u⟩ | ⟨p, a⟩ | r | st | ⟨x, y⟩ | _ | S <;> rcases op' with _ | ⟨q', l', u'⟩ | ⟨p', a'⟩ | r' | st' | ⟨x', y'⟩ | _ | S'
  any_goals first | exact False.elim hr | skip
  · -- solve
    obtain ⟨M', e1, h1, h2⟩ := c62_solve hF hI (hp rfl) h.shows
    obtain ⟨rfl, rfl⟩ := pair_inj (r := osqpSolve cfg env s) e
    exact ⟨{ o with M := M' }, by show onMach o _ = _; rw [onMach, e1]; rfl, ⟨h.n, h.m, h1⟩, Kept.alone lay h2⟩
  · -- vectors
    obtain ⟨c, hl⟩ := h.lv fun _ => False
    obtain ⟨rfl, rfl⟩ := pair_inj (r := osqpUpdateDataVec cfg env s q' l' u') e
    obtain ⟨M', e1, h1⟩ := onMach_ok (o := o) (updateDataVec_ok hF hI hr.1.of hr.2.1.of hr.2.2.of hl)
    exact ⟨_, e1, Done.both ⟨h.n, h.m, c, h1⟩⟩
  · -- matrices
    obtain ⟨c, hl⟩ := h.lv fun _ => False
    obtain ⟨⟨o', ef⟩, e1, h1, h2⟩ := updateDataMat_ok hE hs hr.1 hr.2 h.n h.m hl e
    dsimp only at h2
    subst h2
    exact ⟨o', e1, Done.both h1⟩
  · -- step size
    obtain ⟨c, hc⟩ := h.shows.sh
    cases hr
    obtain ⟨rfl, rfl⟩ := pair_inj (r := osqpUpdateRho cfg env s r) e
    obtain ⟨M', e1, h1⟩ := onMach_ok (o := o) (updateRho_ok hF hI r hc)
    obtain ⟨h2, h3⟩ := h1.shows
    exact ⟨_, e1, ⟨h.n, h.m, h2⟩, Kept.alone lay h3⟩
  · -- settings
    obtain ⟨c, hl⟩ := h.lv fun _ => False
    cases hr
    obtain ⟨rfl, rfl⟩ := pair_inj (r := osqpUpdateSettings cfg s st) e
    obtain ⟨h1, h2⟩ := updateSettings_ok hF st hl
    refine ⟨{ o with M := (updateSettings (E.fix o) st o.M).1 }, ?_, Done.both ⟨h.n, h.m, c, h1⟩⟩
    show onMach o _ = _
    rw [onMach, ← h2]; rfl
  · -- warm start
    obtain ⟨c, hl⟩ := h.lv fun _ => False
    obtain ⟨rfl, rfl⟩ := pair_inj (r := osqpWarmStart s x' y') e
    obtain ⟨M', e1, h1⟩ := onMach_ok (o := o) (warmStart_ok (F := E.fix o) hr.1.of hr.2.of hl)
    exact ⟨_, e1, Done.both ⟨h.n, h.m, c, h1⟩⟩
  · -- cold start
    obtain ⟨c, hl⟩ := h.lv fun _ => False
    obtain ⟨rfl, rfl⟩ := pair_inj (r := (Osqp.coldStart s, (0:ℤ))) e
    obtain ⟨M', e1, h1⟩ := hl.coldStart
    refine ⟨{ o with M := M' }, ?_, Done.both ⟨h.n, h.m, c, h1⟩⟩
    show onMach o _ = _
    rw [onMach, e1]; rfl
  · -- solution
    obtain ⟨M', e1, c, pc, dc, h1, -⟩ := getSolution_both (E := E) h hr S' none none none none (by simp) (by simp) (by simp) (by simp)
    have e' : (osqpGetSolution s S').1 = s' ∧ (osqpGetSolution s S').2.2 = code := by
      have := Option.some.inj e
      exact ⟨congrArg Prod.fst this, congrArg Prod.snd this⟩
    obtain ⟨rfl, rfl⟩ := e'
    exact ⟨_, e1, Done.both ⟨h.n, h.m, c, h1.lv⟩⟩

/-- The solver's own arrays are what counts. -/
theorem Stands.user (h : Stands E R s o) {σ : Store K} (hσ : ∀ b, Owned o.M b → σ b = o.M.σ b) : Stands E R s { o with M := { o.M with σ := σ } } := by
  have S := h.shows
  have hx : σ o.xz.blk = o.M.σ o.xz.blk := hσ _ ⟨.xt, S.lay.len_xt.2.2⟩
  obtain ⟨h1, c, h2⟩ := S.mem
  refine ⟨h.n, h.m, ⟨S.lay, ⟨?_, c, fun k f hf => ?_⟩, S.types, S.lin, S.own, S.g, S.P, S.A, S.sol, fun k hk => ?_⟩⟩
  · show _ ≤ (σ o.xz.blk).size
    rw [hx]; exact h1
  · have := h2 k f hf
    refine ⟨this.len, ?_, fun i => ?_⟩
    · show _ ≤ (σ _).size
      rw [hσ _ ⟨k, rfl⟩]; exact this.room
    · show (σ _).cell _ = _
      rw [hσ _ ⟨k, rfl⟩]; exact this.val i
  · have := S.room k hk
    refine ⟨this.len, ?_⟩
    show _ ≤ (σ _).size
    rw [hσ _ ⟨k, rfl⟩]; exact this.room

end Osqp.Vm
