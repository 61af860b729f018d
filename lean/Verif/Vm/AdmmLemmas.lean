import Verif.Vm.AdmmSpec
import Verif.Vm.Kernels

/-!
# One iteration on memory computes one iteration of the solver layer
-/

set_option linter.unusedSectionVars false
namespace Osqp.Vm
open Csc
variable {K : Type*} [Field K] [LinearOrder K] {d : Dims} {n m : ℕ} {W : Ptrs} {xz x : Ref} {σ σ' : Store K}

/-! ## Linear system -/

theorem ldlSolve_perm {qsolve : Buf K → Option (Buf K)} {N : ℕ} {perm : Buf ℤ} {p : ℕ → ℕ} (hp : PermIs perm N p)
    {B S : ℕ → K} (hq : ∀ c, Holds c N (fun j => B (p j)) → ∃ c', qsolve c = some c' ∧ Holds c' N fun j => S (p j))
    {x b bp : Buf K} (hb : Holds b N B) (hx : N ≤ x.size) (hs : N ≤ bp.size) :
    ∃ x' bp', ldlSolve qsolve (N : ℤ) x b perm bp = some (x', bp') ∧ Holds x' N S := by
  obtain ⟨hp, hlt, hinj⟩ := hp
  obtain ⟨_, π, _, _, q1, q2, q3⟩ := pinv_aux hp hlt hinj
  obtain ⟨b1, e1, _, h1⟩ := fill_holds hs (fun j => B (p j)) (f := fun j bp => (perm.rd j).bind fun k => (b.rd k).bind fun v => bp.wr j v)
    (fun k c hk => by rw [hp.rd hk]; simp only [Option.bind_some]; rw [hb.rd (hlt k hk)]; rfl)
  obtain ⟨b2, e2, h2⟩ := hq b1 h1
  obtain ⟨x', e3, h4, h5⟩ := forI_zero (hi := N) (s := x) (f := fun j x => (perm.rd j).bind fun k => (b2.rd j).bind fun v => x.wr k v)
    (fun j c => c.size = x.size ∧ ∀ i < j, c.cell (p i) = some (S (p i))) ⟨rfl, fun i hi => absurd hi (Nat.not_lt_zero i)⟩ (by
      rintro j c hj ⟨g1, g2⟩
      rw [hp.rd hj, h2.rd hj]
      simp only [Option.bind_some]
      rw [Buf.wr_eq (by have := hlt j hj; omega)]
      refine ⟨_, rfl, g1, fun i hi => ?_⟩
      rw [Buf.set_cell]
      by_cases hij : i = j
      · subst hij; rw [if_pos rfl]
      · rw [if_neg (fun h => hij (hinj i (by omega) j hj h))]
        exact g2 i (by omega))
  refine ⟨x', b2, ?_, ⟨by omega, fun k hk => ?_⟩⟩
  · unfold ldlSolve
    rw [e1]; simp only [Option.bind_some]
    rw [e2]; simp only [Option.bind_some]
    rw [e3]; rfl
  · have := h5 (π k) (q1 k hk)
    rw [q3 k hk] at this; exact this

theorem solve_perm {n m : ℕ} {perm : Buf ℤ} {p : ℕ → ℕ} {bp sol b : Buf K} {B S : ℕ → K} {q : Option (Buf K)} {sc : K} {R : ℕ → K}
    (ha : SolveArgs perm bp sol (n + m) p) {qsolve : Buf K → Option (Buf K)}
    (hq : ∀ c, Holds c (n + m) (fun j => B (p j)) → ∃ c', qsolve c = some c' ∧ Holds c' (n + m) fun j => S (p j))
    (hb : Holds b (n + m) B) (hR : Param2Is q sc m R) :
    ∃ b', solveLinsys qsolve n m false b perm bp sol q sc = some b' ∧ Holds b' (n + m) (fun k => if k < n then S k else B k + R (k - n) * S k) := by
  obtain ⟨x', bp', e, h1⟩ := ldlSolve_perm ha.perm hq hb ha.sol ha.bp
  obtain ⟨b1, e1, g1⟩ := forI_zero (hi := n) (s := b) (f := fun j b => (x'.rd j).bind fun v => b.wr j v)
    (fun j c => Holds c (n + m) fun k => if k < j then S k else B k) (hb.congr (by simp)) (by
      intro j c hj h
      rw [h1.rd (by omega)]
      simp only [Option.bind_some]
      rw [h.wr (by omega)]
      refine ⟨_, rfl, (h.set j (S j)).congr fun k _ => ?_⟩
      rw [Function.update_apply]
      by_cases hkj : k = j
      · subst hkj; rw [if_pos rfl, if_pos (by omega)]
      · rw [if_neg hkj]
        exact if_congr (by omega) rfl rfl)
  have hst : ∀ k < m, stepRd q sc (k : ℤ) = some (R k) := fun k hk => by
    unfold stepRd
    unfold Param2Is at hR
    cases q with
    | none => simp only at hR ⊢; rw [hR k hk]
    | some b => exact Holds.rd hR hk
  obtain ⟨b2, e2, g2⟩ := forI_zero (hi := m) (s := b1)
    (f := fun j b => (b.rd (j + (n : ℤ))).bind fun o => (stepRd q sc j).bind fun r => (x'.rd (j + (n : ℤ))).bind fun v => b.wr (j + (n : ℤ)) (o + r * v))
    (fun j c => Holds c (n + m) fun k => if k < n then S k else if k < n + j then B k + R (k - n) * S k else B k)
    (g1.congr fun k _ => by by_cases hk : k < n <;> simp [hk]) (by
      intro j c hj h
      have hc : ((j : ℤ) + (n : ℤ)) = ((j + n : ℕ) : ℤ) := by push_cast; rfl
      have v1 : (if j + n < n then S (j + n) else if j + n < n + j then B (j + n) + R (j + n - n) * S (j + n) else B (j + n)) = B (j + n) := by
        rw [if_neg (by omega), if_neg (by omega)]
      rw [hc, h.rd (by omega), hst j hj, h1.rd (by omega), v1]
      simp only [Option.bind_some]
      rw [h.wr (by omega)]
      refine ⟨_, rfl, (h.set (j + n) _).congr fun k _ => ?_⟩
      rw [Function.update_apply]
      by_cases hk1 : k = j + n
      · subst hk1
        have c1 : ¬ j + n < n := by omega
        have c2 : j + n < n + (j + 1) := by omega
        rw [if_pos rfl, if_neg c1, if_pos c2, Nat.add_sub_cancel]
      · rw [if_neg hk1]
        by_cases hk2 : k < n
        · rw [if_pos hk2, if_pos hk2]
        · rw [if_neg hk2, if_neg hk2]
          exact if_congr (by omega) rfl rfl)
  refine ⟨b2, ?_, g2.congr fun k hk => ?_⟩
  · unfold solveLinsys
    rw [if_neg (by decide)]
    push_cast at e
    rw [e]; simp only [Option.bind_some]
    rw [e1]; simp only [Option.bind_some]
    exact e2
  · by_cases hk2 : k < n
    · rw [if_pos hk2, if_pos hk2]
    · rw [if_neg hk2, if_neg hk2, if_pos (by omega)]

theorem SolverIs.solves {env : Env d K} {ls : LinSys d K} {lin : LinMem K} (h : SolverIs env ls lin) : Solves env ls lin.solve := by
  intro bx bz b hb
  obtain ⟨p, ha, hq⟩ := h.solve
  obtain ⟨b', e, hb'⟩ := solve_perm ha (hq bx bz) hb h.steps
  refine ⟨b', by unfold LinMem.solve; rw [h.n, h.m, e], hb'.congr fun k hk => ?_⟩
  unfold cat
  by_cases hk1 : k < d.n
  · rw [if_pos hk1, if_pos hk1, if_pos hk1]; rfl
  · have hk2 : k - d.n < d.m := by omega
    rw [if_neg hk1, if_neg hk1, if_neg hk1, if_neg hk1]
    unfold ext; rw [dif_pos hk2, dif_pos hk2, dif_pos hk2, dif_pos hk2]; rfl

/-! ## Layout -/

theorem Layout.len_xt (h : Layout n m W xz) : (W .xt).len = n ∧ (W .xt).off = 0 ∧ (W .xt).blk = xz.blk := by
  obtain ⟨a, e⟩ := h.xt
  rw [e]; exact ⟨rfl, by simp [view, h.whole.1], rfl⟩

theorem Layout.len_zt (h : Layout n m W xz) : (W .zt).len = m ∧ (W .zt).off = n ∧ (W .zt).blk = xz.blk := by
  obtain ⟨a, e⟩ := h.zt
  rw [e]; exact ⟨rfl, by simp [view, h.whole.1], rfl⟩

theorem Layout.apart (h : Layout n m W xz) {a b : Name} (hab : a ≠ b) : Apart (W a) (W b) := by
  obtain ⟨x1, x2, x3⟩ := h.len_xt
  obtain ⟨z1, z2, z3⟩ := h.len_zt
  by_cases c1 : a = .xt ∧ b = .zt
  · rw [c1.1, c1.2]; exact .inr (.inl (by omega))
  by_cases c2 : a = .zt ∧ b = .xt
  · rw [c2.1, c2.2]; exact .inr (.inr (by omega))
  exact .inl (h.own a b hab c1 c2)

theorem Layout.use (h : Layout n m W xz) (a b : Name) : Apart (W a) (W b) ∨ Same (W a) (W b) := by
  by_cases e : a = b
  · subst e; exact .inr ⟨rfl, rfl⟩
  · exact .inl (h.apart e)

theorem Layout.fits (h : Layout n m W xz) (a b : Name) : Fits (W a) (W b) := by
  refine ⟨h.use a b, fun e => ?_⟩
  by_cases c : a = b
  · subst c; exact ⟨rfl, rfl⟩
  · exact absurd e (h.addr a b c)

theorem Layout.perm (h : Layout n m W xz) (f : Name → Name) (hf : Function.Injective f) (hx : f .xt = .xt) (hz : f .zt = .zt) :
    Layout n m (fun k => W (f k)) xz :=
  ⟨h.whole, by simpa only [hx] using h.xt, by simpa only [hz] using h.zt,
    fun k hk => h.start _ fun e => hk (hf (e.trans hz.symm)),
    fun a b hab h1 h2 => h.own _ _ (fun e => hab (hf e)) (fun e => h1 ⟨hf (e.1.trans hx.symm), hf (e.2.trans hz.symm)⟩)
      fun e => h2 ⟨hf (e.1.trans hz.symm), hf (e.2.trans hx.symm)⟩,
    fun a b hab => h.addr _ _ fun e => hab (hf e)⟩

/-- The pointers after the two exchanges. -/
def mate : Name → Name
  | .x => .xPrev | .xPrev => .x | .z => .zPrev | .zPrev => .z | k => k

theorem mate_inj : Function.Injective mate := by intro a b; cases a <;> cases b <;> simp [mate]

theorem swap_eq (W : Ptrs) : swap .z .zPrev (swap .x .xPrev W) = fun k => W (mate k) := by
  funext k; cases k <;> rfl

/-! ## State -/

variable {V : (k : Name) → Option (Vec K (k.dim n m))}

theorem Mem.put (lay : Layout n m W xz) (h : Mem σ W V) {k : Name} {f : Vec K (k.dim n m)} (hk : Has σ' (W k) (k.dim n m) f)
    (ho : OnlyAt (W k) σ σ') : Mem σ' W (Function.update V k (some f)) := by
  intro j g hj
  by_cases e : j = k
  · subst e
    rw [Function.update_self] at hj
    rw [← Option.some.inj hj]; exact hk
  · rw [Function.update_of_ne e] at hj
    exact ho.has (h j g hj) (lay.apart (Ne.symm e))

theorem OnlyAt.same (h : OnlyAt x σ σ') {b : ℕ} (hb : b ≠ x.blk) : σ' b = σ b := by
  have h1 := h.1 b
  have h2 : (σ' b).cell = (σ b).cell := by funext k; exact h.2 b k (by rintro ⟨e, _⟩; exact hb e)
  cases e1 : σ' b; cases e2 : σ b
  rw [e1, e2] at h1 h2
  simp only at h1 h2
  rw [h1, h2]

/-- A step of the iteration: state `V` in memory `σ` becomes `V'`; only the arrays of the vectors `L` and of `xz` change. -/
def Goes (W : Ptrs) (xz : Ref) (L : List Name) (V' : (k : Name) → Option (Vec K (k.dim n m))) (σ : Store K) (r : Option (Store K)) : Prop :=
  ∃ σ', r = some σ' ∧ Mem σ' W V' ∧ (xz.len ≤ (σ xz.blk).size → xz.len ≤ (σ' xz.blk).size) ∧ ∀ b, b ≠ xz.blk → (∀ k ∈ L, b ≠ (W k).blk) → σ' b = σ b

theorem goes_put (lay : Layout n m W xz) (h : Mem σ W V) {k : Name} {f : Vec K (k.dim n m)} {r : Option (Store K)}
    (hr : ∃ σ', r = some σ' ∧ Has σ' (W k) (k.dim n m) f ∧ OnlyAt (W k) σ σ')
    {V' : (k : Name) → Option (Vec K (k.dim n m))} (hV : Function.update V k (some f) = V') : Goes W xz [k] V' σ r := by
  obtain ⟨σ', e, h1, h2⟩ := hr
  subst hV
  refine ⟨σ', e, h.put lay h1 h2, fun hl => by rw [h2.1]; exact hl, fun b _ hb => h2.same (hb k (by simp))⟩

theorem Goes.bind {V' V'' : (k : Name) → Option (Vec K (k.dim n m))} {L L' : List Name} {r : Option (Store K)} {g : Store K → Option (Store K)}
    (h : Goes W xz L V' σ r) (h' : ∀ τ, Mem τ W V' → Goes W xz L' V'' τ (g τ)) : Goes W xz (L ++ L') V'' σ (r.bind g) := by
  obtain ⟨τ, e, h1, h2, h3⟩ := h
  obtain ⟨σ', e', k1, k2, k3⟩ := h' τ h1
  refine ⟨σ', by rw [e]; exact e', k1, fun hl => k2 (h2 hl), fun b hb hL => ?_⟩
  rw [k3 b hb fun k hk => hL k (List.mem_append_right _ hk), h3 b hb fun k hk => hL k (List.mem_append_left _ hk)]

theorem Goes.mono {V' : (k : Name) → Option (Vec K (k.dim n m))} {L L' : List Name} {r : Option (Store K)} (h : Goes W xz L V' σ r)
    (hL : ∀ k ∈ L, k ∈ L' ∨ (W k).blk = xz.blk) : Goes W xz L' V' σ r := by
  obtain ⟨τ, e, h1, h2, h3⟩ := h
  refine ⟨τ, e, h1, h2, fun b hb hk => h3 b hb fun k hk' => ?_⟩
  rcases hL k hk' with h | h
  · exact hk k h
  · rw [h]; exact hb

/-! ## The steps -/

section Steps
variable {s : Solver d K} {c : Scr d K}

theorem computeRhs_goes (lay : Layout d.n d.m W xz) (h : Mem σ W (vals s c)) :
    Goes W xz [] (vals s { c with xt := (Osqp.computeRhs s).1, zt := (Osqp.computeRhs s).2 }) σ (computeRhs s.settings s.work.rho_inv W σ) := by
  unfold computeRhs
  set bx := vAddScaled s.settings.sigma s.work.x_prev (-1) s.work.data.q with hbx
  have g1 : Goes W xz [.xt] (vals s { c with xt := bx }) σ (addScaled (W .xt) s.settings.sigma (W .xPrev) (-1) (W .q) σ) :=
    goes_put lay h (addScaled_holds (h .xt _ rfl).toRoom _ (h .xPrev _ rfl) (lay.fits _ _) _ (h .q _ rfl) (lay.use _ _))
      (by funext k; cases k <;> rfl)
  have hx := lay.len_xt.2.2
  have hz := lay.len_zt.2.2
  by_cases hc : s.settings.rho_is_vec ≠ 0
  · have e : Osqp.computeRhs s = (bx, vAddScaled (-1) (vEwProd s.work.rho_inv_vec s.work.y) 1 s.work.z_prev) := by
      unfold Osqp.computeRhs; simp only [if_pos hc]; rfl
    rw [e]
    refine (g1.bind (L' := [.zt, .zt]) fun τ h => ?_).mono (by simp [hx, hz])
    rw [if_pos hc]
    refine Goes.bind (L := [.zt]) (L' := [.zt]) (V' := vals s { c with xt := bx, zt := vEwProd s.work.rho_inv_vec s.work.y }) ?_ fun τ h => ?_
    · exact goes_put lay h (ewProd_holds (h .zt _ rfl).toRoom (h .rhoInv _ (if_pos hc)) (lay.fits _ _) (h .y _ rfl) (lay.use _ _))
        (by funext k; cases k <;> rfl)
    · exact goes_put lay h (addScaled_holds (h .zt _ rfl).toRoom _ (h .zt _ rfl) (lay.fits _ _) _ (h .zPrev _ rfl) (lay.use _ _))
        (by funext k; cases k <;> rfl)
  · have e : Osqp.computeRhs s = (bx, vAddScaled 1 s.work.z_prev (-s.work.rho_inv) s.work.y) := by
      unfold Osqp.computeRhs; simp only [if_neg hc]; rfl
    rw [e]
    refine (g1.bind (L' := [.zt]) fun τ h => ?_).mono (by simp [hx, hz])
    rw [if_neg hc]
    exact goes_put lay h (addScaled_holds (h .zt _ rfl).toRoom _ (h .zPrev _ rfl) (lay.fits _ _) _ (h .y _ rfl) (lay.use _ _))
      (by funext k; cases k <;> rfl)

theorem solveIn_goes {env : Env d K} {slv : Buf K → Option (Buf K)} (hl : Solves env s.work.linsys slv) (lay : Layout d.n d.m W xz)
    {bx : Vec K d.n} {bz : Vec K d.m} (h : Mem σ W (vals s { c with xt := bx, zt := bz })) :
    Goes W xz [] (vals s { c with xt := (linsysSolve env s.work.linsys (bx, bz)).1, zt := (linsysSolve env s.work.linsys (bx, bz)).2 }) σ (solveIn slv xz σ) := by
  obtain ⟨x1, x2, x3⟩ := lay.len_xt
  obtain ⟨z1, z2, z3⟩ := lay.len_zt
  have hx : Has σ (W .xt) d.n bx := h .xt _ rfl
  have hz : Has σ (W .zt) d.m bz := h .zt _ rfl
  have hb : Holds (σ xz.blk) (d.n + d.m) (cat d.n (ext bx) (ext bz)) := by
    refine ⟨by have := hz.room; rw [z2, z3] at this; exact this, fun k hk => ?_⟩
    unfold cat
    by_cases hk1 : k < d.n
    · have := hx.val ⟨k, hk1⟩
      rw [x2, x3] at this
      rw [if_pos hk1]; simpa [ext, hk1] using this
    · have hk2 : k - d.n < d.m := by omega
      have := hz.val ⟨k - d.n, hk2⟩
      rw [z2, z3] at this
      simp only [Nat.add_sub_cancel' (not_lt.1 hk1)] at this
      rw [if_neg hk1]; simpa [ext, hk2] using this
  obtain ⟨b', e, hb'⟩ := hl bx bz _ hb
  refine ⟨Function.update σ xz.blk b', by unfold solveIn; rw [e]; rfl, fun k f hk => ?_,
    fun _ => by rw [Function.update_self, lay.whole.2]; exact hb'.1, fun b hb _ => Function.update_of_ne hb _ _⟩
  by_cases c1 : k = .xt
  · subst c1
    rw [← Option.some.inj hk]
    refine ⟨x1, by rw [x3, x2, Function.update_self]; have := hb'.1; show 0 + d.n ≤ _; omega, fun i => ?_⟩
    have hi : (i : ℕ) < d.n := i.2
    rw [x3, x2, Function.update_self, Nat.zero_add, hb'.2 i (by omega)]
    unfold cat; rw [if_pos hi]; exact congrArg some (dif_pos hi)
  by_cases c2 : k = .zt
  · subst c2
    rw [← Option.some.inj hk]
    refine ⟨z1, by rw [z3, z2, Function.update_self]; exact hb'.1, fun i => ?_⟩
    have hi : (i : ℕ) < d.m := i.2
    rw [z3, z2, Function.update_self, hb'.2 (d.n + i) (by omega)]
    unfold cat
    rw [if_neg (by omega), Nat.add_sub_cancel_left]
    exact congrArg some (dif_pos hi)
  · have hk' : vals s { c with xt := bx, zt := bz } k = some f := by
      rw [← hk]; cases k <;> first | rfl | exact absurd rfl c1 | exact absurd rfl c2
    have hf := h k f hk'
    have hne : (W k).blk ≠ xz.blk := by
      rw [← x3]; exact lay.own k .xt c1 (fun e => c1 e.1) fun e => c2 e.1
    exact ⟨hf.len, by rw [Function.update_of_ne hne]; exact hf.room, fun i => by rw [Function.update_of_ne hne]; exact hf.val i⟩

theorem updateXZTilde_goes {env : Env d K} {slv : Buf K → Option (Buf K)} (hl : Solves env s.work.linsys slv) (lay : Layout d.n d.m W xz)
    (h : Mem σ W (vals s c)) :
    Goes W xz [] (vals s { c with xt := (Osqp.updateXZTilde env s).1, zt := (Osqp.updateXZTilde env s).2 }) σ
      (updateXZTilde s.settings s.work.rho_inv slv W xz σ) :=
  (computeRhs_goes lay h).bind fun _ h => solveIn_goes hl lay h

theorem updateX_goes (lay : Layout d.n d.m W xz) (h : Mem σ W (vals s c)) :
    Goes W xz [.x, .dx] (vals (Osqp.updateX c.xt s) c) σ (updateX s.settings W σ) := by
  unfold updateX
  refine Goes.bind (L := [.x]) (L' := [.dx])
    (V' := vals { s with work := { s.work with x := vAddScaled s.settings.alpha c.xt (1 - s.settings.alpha) s.work.x_prev } } c) ?_ fun τ h => ?_
  · exact goes_put lay h (addScaled_holds (h .x _ rfl).toRoom _ (h .xt _ rfl) (lay.fits _ _) _ (h .xPrev _ rfl) (lay.use _ _))
      (by funext k; cases k <;> rfl)
  · exact goes_put lay h (minus_holds (h .dx _ rfl).toRoom (h .x _ rfl) (lay.fits _ _) (h .xPrev _ rfl) (lay.use _ _))
      (by funext k; cases k <;> rfl)

/-- `s` with `z` replaced. -/
abbrev withZ (s : Solver d K) (z : Vec K d.m) : Solver d K := { s with work := { s.work with z := z } }

theorem updateZ_goes (lay : Layout d.n d.m W xz) (h : Mem σ W (vals s c)) :
    Goes W xz [.z] (vals (Osqp.updateZ c.zt s) c) σ (updateZ s.settings s.work.rho_inv W σ) := by
  unfold updateZ
  have fin : ∀ (z : Vec K d.m) τ, Mem τ W (vals (withZ s z) c) →
      Goes W xz [.z] (vals (withZ s (vBound z s.work.data.l s.work.data.u)) c) τ (boundVec (W .z) (W .z) (W .l) (W .u) τ) := fun z τ h =>
    goes_put lay h (boundVec_holds (h .z _ rfl).toRoom (h .z _ rfl) (lay.use _ _) (h .l _ rfl) (lay.use _ _) (h .u _ rfl) (lay.use _ _))
      (by funext k; cases k <;> rfl)
  by_cases hc : s.settings.rho_is_vec ≠ 0
  · have e : Osqp.updateZ c.zt s = withZ s (vBound (vAddScaled3 1 (vEwProd s.work.rho_inv_vec s.work.y) s.settings.alpha c.zt
        (1 - s.settings.alpha) s.work.z_prev) s.work.data.l s.work.data.u) := by
      unfold Osqp.updateZ; simp only [if_pos hc]
    rw [e, if_pos hc]
    refine Goes.mono (L := ([.z] ++ [.z]) ++ [.z]) (Goes.bind ?_ (fin _)) (by simp)
    refine Goes.bind (V' := vals (withZ s (vEwProd s.work.rho_inv_vec s.work.y)) c) ?_ fun τ h => ?_
    · exact goes_put lay h (ewProd_holds (h .z _ rfl).toRoom (h .rhoInv _ (if_pos hc)) (lay.fits _ _) (h .y _ rfl) (lay.use _ _))
        (by funext k; cases k <;> rfl)
    · exact goes_put lay h (addScaled3_holds (h .z _ rfl).toRoom _ (h .z _ rfl) (lay.fits _ _) _ (h .zt _ rfl) (lay.use _ _) _
        (h .zPrev _ rfl) (lay.use _ _)) (by funext k; cases k <;> rfl)
  · have e : Osqp.updateZ c.zt s = withZ s (vBound (vAddScaled3 s.settings.alpha c.zt (1 - s.settings.alpha) s.work.z_prev s.work.rho_inv s.work.y)
        s.work.data.l s.work.data.u) := by
      unfold Osqp.updateZ; simp only [if_neg hc]
    rw [e, if_neg hc]
    refine Goes.mono (L := [.z] ++ [.z]) (Goes.bind ?_ (fin _)) (by simp)
    exact goes_put lay h (addScaled3_holds (h .z _ rfl).toRoom _ (h .zt _ rfl) (lay.fits _ _) _ (h .zPrev _ rfl) (lay.use _ _) _
      (h .y _ rfl) (lay.use _ _)) (by funext k; cases k <;> rfl)

/-- `s` with `delta_y` replaced. -/
abbrev withDy (s : Solver d K) (dy : Vec K d.m) : Solver d K := { s with work := { s.work with delta_y := dy } }

theorem updateY_goes (lay : Layout d.n d.m W xz) (h : Mem σ W (vals s c)) :
    Goes W xz [.dy, .y] (vals (Osqp.updateY c.zt s) c) σ (updateY s.settings W σ) := by
  unfold updateY
  set dy0 := vAddScaled3 s.settings.alpha c.zt (1 - s.settings.alpha) s.work.z_prev (-1) s.work.z with hdy
  set dy := if s.settings.rho_is_vec ≠ 0 then vEwProd dy0 s.work.rho_vec else vScale dy0 s.settings.rho with hd
  have e : Osqp.updateY c.zt s = { s with work := { s.work with delta_y := dy, y := vPlus s.work.y dy } } := rfl
  rw [e]
  refine Goes.mono (L := [.dy] ++ ([.dy] ++ [.y])) (Goes.bind (V' := vals (withDy s dy0) c) ?_ fun τ h =>
    Goes.bind (V' := vals (withDy s dy) c) ?_ fun τ h => ?_) (by simp)
  · exact goes_put lay h (addScaled3_holds (h .dy _ rfl).toRoom _ (h .zt _ rfl) (lay.fits _ _) _ (h .zPrev _ rfl) (lay.use _ _) _
      (h .z _ rfl) (lay.use _ _)) (by funext k; cases k <;> rfl)
  · by_cases hc : s.settings.rho_is_vec ≠ 0
    · rw [if_pos hc]
      rw [if_pos hc] at hd
      rw [hd]
      exact goes_put lay h (ewProd_holds (h .dy _ rfl).toRoom (h .dy _ rfl) (lay.fits _ _) (h .rho _ (if_pos hc)) (lay.use _ _))
        (by funext k; cases k <;> rfl)
    · rw [if_neg hc]
      rw [if_neg hc] at hd
      rw [hd]
      exact goes_put lay h (multScalar_holds (h .dy _ rfl) _) (by funext k; cases k <;> rfl)
  · exact goes_put lay h (plus_holds (h .y _ rfl).toRoom (h .y _ rfl) (lay.fits _ _) (h .dy _ rfl) (lay.use _ _))
      (by funext k; cases k <;> rfl)

end Steps

theorem iterate_goes {env : Env d K} {s : Solver d K} {slv : Buf K → Option (Buf K)} (hl : Solves env s.work.linsys slv) (lay : Layout d.n d.m W xz)
    (h : Holding σ W xz s) :
    ∃ σ', iterate s.settings s.work.rho_inv slv xz W σ = some (fun k => W (mate k), σ') ∧
      Holding σ' (fun k => W (mate k)) xz (admmStep env s) ∧ OnlyVectors W xz σ σ' := by
  obtain ⟨hsz, c, h⟩ := h
  have lay' : Layout d.n d.m (fun k => W (mate k)) xz := lay.perm mate mate_inj rfl rfl
  have h0 : Mem σ (fun k => W (mate k)) (vals (swapIterates s) c) := by
    intro k f hk
    cases k with
    | x => exact h .xPrev f hk
    | y => exact h .y f hk
    | z => exact h .zPrev f hk
    | xPrev => exact h .x f hk
    | zPrev => exact h .z f hk
    | dx => exact h .dx f hk
    | dy => exact h .dy f hk
    | xt => exact h .xt f hk
    | zt => exact h .zt f hk
    | q => exact h .q f hk
    | l => exact h .l f hk
    | u => exact h .u f hk
    | rho => exact h .rho f hk
    | rhoInv => exact h .rhoInv f hk
    | Ax => exact h .Ax f hk
    | Px => exact h .Px f hk
    | Aty => exact h .Aty f hk
    | Atdy => exact h .Atdy f hk
    | Pdx => exact h .Pdx f hk
    | Adx => exact h .Adx f hk
    | D => exact h .D f hk
    | Dinv => exact h .Dinv f hk
    | E => exact h .E f hk
    | Einv => exact h .Einv f hk
    | solX => exact h .solX f hk
    | solY => exact h .solY f hk
    | solPc => exact h .solPc f hk
    | solDc => exact h .solDc f hk
    | Dt => exact h .Dt f hk
    | DtA => exact h .DtA f hk
    | Et => exact h .Et f hk
    | pX => exact h .pX f hk
    | pZ => exact h .pZ f hk
    | pY => exact h .pY f hk
  have g := (updateXZTilde_goes (s := swapIterates s) (env := env) (slv := slv) hl lay' h0).bind fun τ h => (updateX_goes lay' h).bind fun τ h =>
    (updateZ_goes lay' h).bind fun τ h => updateY_goes lay' h
  obtain ⟨σ', e, h1, h2, h3⟩ := g
  refine ⟨σ', ?_, ⟨h2 hsz, _, h1⟩, fun b hb hk => h3 b hb fun k hk' => ?_⟩
  · unfold iterate
    rw [swap_eq]
    have e' := congrArg (Option.map fun σ => ((fun k => W (mate k) : Ptrs), σ)) e
    rw [Option.map_some] at e'
    rw [← e', Option.map_bind]
    refine Option.bind_congr fun a _ => ?_
    show _ = Option.map _ _
    rw [Option.map_bind]
    refine Option.bind_congr fun a _ => ?_
    show _ = Option.map _ _
    rw [Option.map_bind]
    refine Option.bind_congr fun a _ => ?_
    show _ = Option.map _ _
    exact (Option.map_eq_bind ..).symm
  · refine hk (mate k) ?_
    revert hk'; cases k <;> simp [mate]

end Osqp.Vm
