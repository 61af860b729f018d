import Verif.Vm.ApiRun

/-!
# C66: the API on memory

The specification is `Vm/ApiSpec.lean`. `Lives cfg env E R s o`: the solver object `o` in memory and the state `s` of the solver layer come from
the same set-up and the same calls, between which the caller may have written to memory of their own.
-/

set_option linter.unusedSectionVars false
namespace Osqp
open Vm Csc Spec
variable {L K : Type*} [Field K] [LinearOrder K] [IsStrictOrderedRing K] {d : Dims}
variable {cfg : Cfg} {env : Env d K} {E : Lib L K} {R : LinSys d K → L → Prop} {s s' : Solver d K} {o o' : Obj L K}

/-- **C66** (set-up).  `osqp_setup`, called with arrays that hold the problem, runs without undefined behaviour and has the outcome of the solver layer; a
new solver shows its first state, and memory that is not the new solver's is unchanged. -/
theorem c66_setup (hE : LibIs cfg env E R) (hs : SqrtPos env) {W : Ptrs} {xz : Ref} (hW : Allocated d W xz) {a : SetupArgs K} {D : Data d K} {st : Settings K}
    (ha : ArgsAre a D st) (σ : Store K) : ∃ r, setup E W xz a σ = some r ∧ SameOut E R W σ (osqpSetup cfg env D st) r :=
  setup_ok hE hs hW ha σ

/-- **C66** (histories).  After any history, the memory shows the state of the solver layer. -/
theorem c66_history (hE : LibIs cfg env E R) (hs : SqrtPos env) (h : Lives cfg env E R s o) : Stands E R s o ∧ Reachable cfg env s := by
  induction h with
  | setup hW ha e e' =>
    obtain ⟨r, e1, h1⟩ := setup_ok hE hs hW ha _
    rw [e'] at e1
    obtain rfl := Option.some.inj e1
    rw [e] at h1
    exact ⟨h1.1, _, _, _, e, .refl _⟩
  | user _ hσ ih => exact ⟨ih.1.user hσ, ih.2⟩
  | call _ hr hp e e' ih =>
    obtain ⟨o1, e1, h1, -⟩ := step_ok hE hs ih.1 hr hp e
    rw [e'] at e1
    obtain ⟨rfl, rfl⟩ := Prod.mk.inj (Option.some.inj e1)
    obtain ⟨D, st, s0, g1, g2⟩ := ih.2
    exact ⟨h1, D, st, s0, g1, .step g2 e⟩

/-- **C66** (calls).  After any history, a call whose arguments the solver layer accepts as defined runs without undefined behaviour, returns the value
the solver layer returns, and leaves an object that shows the state the solver layer computes. It writes to the solver's arrays and to the arrays it was
asked to write to, and to nothing else. -/
theorem c66_call (hE : LibIs cfg env E R) (hs : SqrtPos env) (h : Lives cfg env E R s o) {c : MOp K} {op : Op d K} (hr : Reads o c op)
    (hp : op = .solve → s.settings.polishing = 0 ∨ PolishIs cfg env (E.fix o) R) {code : ℤ} (e : apiStep cfg env s op = some (s', code)) :
    ∃ o', run E o c = some (o', code) ∧ Lives cfg env E R s' o' ∧ Alone c.target o o' := by
  obtain ⟨o1, e1, -, h2⟩ := step_ok hE hs (c66_history hE hs h).1 hr hp e
  exact ⟨o1, e1, .call h hr hp e e1, h2⟩

/-- **C66** (results).  After any history, `solver->info` and the arrays of `solver->solution` hold what the solver layer says. -/
theorem c66_results (hE : LibIs cfg env E R) (hs : SqrtPos env) (h : Lives cfg env E R s o) :
    o.M.g.info = s.info ∧ o.M.g.st = s.settings ∧ (o.hasSol = true ↔ s.solution.isSome = true) ∧
    ∀ S, s.solution = some S → Has o.M.σ (o.M.W .solX) d.n S.x ∧ Has o.M.σ (o.M.W .solY) d.m S.y ∧
      Has o.M.σ (o.M.W .solPc) d.m S.prim_inf_cert ∧ Has o.M.σ (o.M.W .solDc) d.n S.dual_inf_cert := by
  have g := (c66_history hE hs h).1.shows
  obtain ⟨-, c, hm⟩ := g.mem
  refine ⟨by rw [g.g], by rw [g.g], by rw [show o.hasSol = _ from g.sol], fun S e => ⟨?_, ?_, ?_, ?_⟩⟩
  · exact hm .solX S.x (by show s.solution.map _ = _; rw [e]; rfl)
  · exact hm .solY S.y (by show s.solution.map _ = _; rw [e]; rfl)
  · exact hm .solPc S.prim_inf_cert (by show s.solution.map _ = _; rw [e]; rfl)
  · exact hm .solDc S.dual_inf_cert (by show s.solution.map _ = _; rw [e]; rfl)

/-- **C66** (`osqp_get_solution`).  After any history, the call fills the caller's arrays with the solution the solver layer gives; those of the
certificates only if there is a solution or a certificate, otherwise they keep what they held. -/
theorem c66_getSolution (hE : LibIs cfg env E R) (hs : SqrtPos env) (h : Lives cfg env E R s o) {S : Dst} (hd : DstIs d o S) (sol : Solution d K) :
    let r := (osqpGetSolution s sol).2.1
    ∃ o', run E o (.getSolution S) = some (o', 0) ∧ Has o'.M.σ S.x d.n r.x ∧ Has o'.M.σ S.y d.m r.y ∧
      (CertsOut s.info ∨ Has o.M.σ S.pc d.m sol.prim_inf_cert → Has o'.M.σ S.pc d.m r.prim_inf_cert) ∧
      (CertsOut s.info ∨ Has o.M.σ S.dc d.n sol.dual_inf_cert → Has o'.M.σ S.dc d.n r.dual_inf_cert) := by
  classical
  intro r
  obtain ⟨M', e, c, pc, dc, h1, h2, h3⟩ := getSolution_both (c66_history hE hs h).1 hd sol none none
    (if Has o.M.σ S.pc d.m sol.prim_inf_cert then some sol.prim_inf_cert else none)
    (if Has o.M.σ S.dc d.n sol.dual_inf_cert then some sol.dual_inf_cert else none) (by simp) (by simp)
    (by intro v hv; split_ifs at hv with c; exact (Option.some.inj hv) ▸ c) (by intro v hv; split_ifs at hv with c; exact (Option.some.inj hv) ▸ c)
  refine ⟨_, e, h1.val .x _ rfl, h1.val .y _ rfl, fun hc => h1.val .pc _ (h2 (hc.imp_right fun c => if_pos c)), fun hc => h1.val .dc _ (h3 (hc.imp_right fun c => if_pos c))⟩

/-- **C66** (two solvers).  Two solvers live in the same memory, each with arrays of its own. A call on the first one, which is not asked to write to
arrays of the second, leaves the second one as it is. -/
theorem c66_two (hE : LibIs cfg env E R) (hs : SqrtPos env) (h : Lives cfg env E R s o) {d₂ : Dims} {L₂ : Type*} {cfg₂ : Cfg} {env₂ : Env d₂ K} {E₂ : Lib L₂ K}
    {R₂ : LinSys d₂ K → L₂ → Prop} {s₂ : Solver d₂ K} {o₂ : Obj L₂ K} (h₂ : Lives cfg₂ env₂ E₂ R₂ s₂ o₂) (hσ : o₂.M.σ = o.M.σ)
    (hd : ∀ b, Owned o₂.M b → ¬ Owned o.M b) {c : MOp K} {op : Op d K} (hr : Reads o c op) (ht : ∀ b, Owned o₂.M b → ¬ c.target b)
    (hp : op = .solve → s.settings.polishing = 0 ∨ PolishIs cfg env (E.fix o) R) {code : ℤ} (e : apiStep cfg env s op = some (s', code)) :
    ∃ o', run E o c = some (o', code) ∧ Lives cfg env E R s' o' ∧ Lives cfg₂ env₂ E₂ R₂ s₂ { o₂ with M := { o₂.M with σ := o'.M.σ } } ∧
      ∀ b, Owned o₂.M b → ¬ Owned o'.M b := by
  obtain ⟨o1, e1, h1, h2⟩ := c66_call hE hs h hr hp e
  exact ⟨o1, e1, h1, .user h₂ fun b hb => by rw [h2.kept b (hd b hb) (ht b hb), hσ], fun b hb hb' => hd b hb ((h2.own b).1 hb')⟩

/-! ## The built-in linear-system solver -/

/-- The library with QDLDL: `perm` is the ordering found by AMD. -/
def qdldlLib (cfg : Cfg) (sqrt : K → K) (clk : ℕ → K) (intr : ℕ → Bool) (Q : Qdldl K) (perm : Buf ℤ)
    (pol : Obj (QMem K) K → Option (Mach (QMem K) K × ℤ)) : Lib (QMem K) K where
  cfg := cfg
  sqrt := sqrt
  clk := clk
  intr := intr
  solve := fun q => q.lin.solve
  updRho := qUpdateRho Q
  init := qInit Q perm
  updMat := qUpdateMat Q
  polish := pol

/-- **C66** (QDLDL).  The linear-system interface of QDLDL meets the assumptions, if QDLDL itself factors and solves. -/
theorem c66_qdldl {p : ℕ → ℕ} {Q : Qdldl K} (hQ : QdldlIs env p Q) {perm : Buf ℤ} (hp : PermIs perm (d.n + d.m) p)
    (pol : Obj (QMem K) K → Option (Mach (QMem K) K × ℤ)) :
    LibIs cfg env (qdldlLib cfg env.sqrt env.clk env.intr Q perm pol) (QIs env p) where
  cfg := rfl
  sqrt := rfl
  clk := rfl
  intr := rfl
  calls _ := c62_qdldl hQ rfl rfl
  init := by
    intro P A vP vA sigma rho v b hP hA ht hb
    refine init_ok hQ hp hP hA ht sigma rho ?_
    rcases v with _ | v <;> rcases b with _ | b
    any_goals first | exact False.elim hb | skip
    · trivial
    · exact hb
  updMat := fun h hr hP hA hpi hai => h.updateMat hQ hr hP hA hpi hai

/-! ## A concrete history -/

namespace Demo
open Vm

noncomputable def envQ : Env dims ℚ := exactEnv dims rsqrt (fun _ => 0) fun _ => false
noncomputable def libQ : Lib (QMem ℚ) ℚ := qdldlLib Demo.cfg envQ.sqrt envQ.clk envQ.intr (exactQ dims) ⟨2, fun j => some (j : ℤ)⟩ fun _ => none

theorem libQ_is : LibIs Demo.cfg envQ libQ (QIs envQ id) := by
  have hp : PermIs ⟨2, fun j => some (j : ℤ)⟩ (dims.n + dims.m) id := ⟨⟨le_rfl, fun _ _ => rfl⟩, fun _ h => h, fun _ _ _ _ h => h⟩
  exact c66_qdldl (exact_is hp _ _ _) hp _

theorem envQ_sqrt : SqrtPos envQ := fun x hx => Demo.sqrtPos (fun _ => 0) (fun _ => false) false x hx

/-- The solver layer: set-up, a new cost, the solve. -/
noncomputable def madeQ : Option (Solver dims ℚ) := got (osqpSetup Demo.cfg envQ sSolved.data sSolved.st)
noncomputable def costQ (s : Solver dims ℚ) : Solver dims ℚ × ℤ := osqpUpdateDataVec Demo.cfg envQ s (some fun _ => 1) none none

theorem madeQ_ok : madeQ.isSome = true ∧ madeQ.map (fun s => (costQ s).1.settings.polishing) = some 0 ∧ madeQ.map (fun s => (costQ s).2) = some 0 := by
  refine ⟨by decide +kernel, by decide +kernel, by decide +kernel⟩

/-- The caller's arrays: one element each. -/
def mine (b : ℕ) : Ref := ⟨b, b, 0, 1⟩
def dstQ : Dst := ⟨mine 101, mine 102, mine 103, mine 104⟩

/-- A solver is set up with QDLDL. The caller writes a new cost vector to an array of their own and passes it to `osqp_update_data_vec`, solves the
problem and fetches the solution into four other arrays: every call of this history meets the hypotheses of the theorems above. -/
example : ∃ s o o', madeQ = some s ∧ Lives Demo.cfg envQ libQ (QIs envQ id) (osqpSolve Demo.cfg envQ (costQ s).1).1 o ∧ DstIs dims o dstQ ∧
    run libQ o (.getSolution dstQ) = some (o', 0) := by
  obtain ⟨h1, h2, -⟩ := madeQ_ok
  obtain ⟨s, hs⟩ := Option.isSome_iff_exists.1 h1
  rw [hs] at h2
  have h2 : (costQ s).1.settings.polishing = 0 := Option.some.inj h2
  have hok : osqpSetup Demo.cfg envQ sSolved.data sSolved.st = .ok s := by
    have := got_ok h1
    rw [show (got (osqpSetup Demo.cfg envQ sSolved.data sSolved.st)).get h1 = s from Option.get_of_eq_some h1 hs] at this
    exact this
  have hW : Allocated dims (anyPtrs 1 1) ⟨34, 7, 0, 2⟩ := ⟨any_layout 1 1, fun _ => rfl⟩
  obtain ⟨P, hP⟩ := stores_any stores_one sSolved.data.P
  obtain ⟨A, hA⟩ := stores_any stores_one sSolved.data.A
  have ha : ArgsAre (d := dims) ⟨some P, some ⟨1, fun _ => some (sSolved.data.q 0)⟩, some A, some ⟨1, fun _ => some (sSolved.data.l 0)⟩,
      some ⟨1, fun _ => some (sSolved.data.u 0)⟩, 1, 1, some sSolved.st⟩ sSolved.data sSolved.st :=
    ⟨⟨_, rfl, hP⟩, ⟨_, rfl, le_rfl, fun _ => rfl⟩, ⟨_, rfl, hA⟩, ⟨_, rfl, le_rfl, fun _ => rfl⟩, ⟨_, rfl, le_rfl, fun _ => rfl⟩, rfl, rfl, rfl⟩
  obtain ⟨r, e1, g1⟩ := c66_setup libQ_is envQ_sqrt hW ha fun _ => ⟨1, fun _ => none⟩
  rw [hok] at g1
  rcases r with _ | _ | o
  any_goals first | exact False.elim g1 | skip
  obtain ⟨-, eW, hσ⟩ := g1
  have l1 : Lives Demo.cfg envQ libQ (QIs envQ id) s o := Lives.setup hW ha hok e1
  have hout : ∀ b, 50 ≤ b → ¬ Owned o.M b := by
    rintro b hb ⟨k, rfl⟩
    rw [eW] at hb
    revert hb
    cases k <;> decide
  -- the caller writes the new cost
  have l2 := l1.user (σ := Function.update o.M.σ 100 ⟨1, fun _ => some 1⟩)
    fun b hb => Function.update_of_ne (fun e => hout b (by omega) hb) _ _
  obtain ⟨o2, -, l3, a3⟩ := c66_call libQ_is envQ_sqrt l2 (c := .updateDataVec (some (mine 100)) none none)
    (op := .updateDataVec (some fun _ => 1) none none)
    ⟨⟨⟨rfl, by simp [mine], fun i => by simp [mine]⟩, fun k _ e => hout 100 (by omega) ⟨k, e⟩⟩, trivial, trivial⟩ (by simp) rfl
  obtain ⟨o3, -, l4, a4⟩ := c66_call libQ_is envQ_sqrt l3 (c := .solve) (op := .solve) trivial (fun _ => .inl h2) rfl
  have own : ∀ b, Owned o3.M b ↔ Owned o.M b := fun b => (a4.own b).trans (a3.own b)
  have room : ∀ b, 101 ≤ b → Room o3.M.σ (mine b) 1 := fun b hb => by
    refine ⟨rfl, ?_⟩
    have := hout b (by omega)
    show 0 + 1 ≤ (o3.M.σ b).size
    rw [a4.kept b (fun h => this ((a3.own b).1 h)) id, a3.kept b this id]
    show 0 + 1 ≤ (Function.update o.M.σ 100 _ b).size
    rw [Function.update_of_ne (by omega), hσ b this]
  have hd : DstIs dims o3 dstQ := by
    refine ⟨room 101 (by omega), room 102 (by omega), room 103 (by omega), room 104 (by omega), .inl (by decide), .inl (by decide), .inl (by decide),
      .inl (by decide), .inl (by decide), .inl (by decide), fun k => ⟨?_, ?_, ?_, ?_⟩⟩
    all_goals exact fun e => hout _ (by decide) ((own _).1 ⟨k, e⟩)
  obtain ⟨o4, e4, -⟩ := c66_getSolution libQ_is envQ_sqrt l4 hd ⟨fun _ => 0, fun _ => 0, fun _ => 0, fun _ => 0⟩
  exact ⟨s, o3, o4, hs, l4, hd, e4⟩

end Demo
end Osqp
