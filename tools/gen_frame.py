#!/usr/bin/env python3
"""Generates lean/Verif/Lemmas/Frame.lean: for each model function, simp lemmas saying which state fields
it leaves unchanged."""
WORK="data linsys rho_vec rho_inv_vec rho_inv constr_type x y z x_prev z_prev Ax Px Aty delta_y delta_x scaling scaled_prim_res scaled_dual_res scaled_dual_gap xtPx qtx SC rho_updated last_rel_kkt first_run clear_update_time rho_update_from_solve".split()
INFO="status status_val status_polish obj_val dual_obj_val prim_res dual_res duality_gap iter rho_updates rho_estimate setup_time solve_time update_time polish_time run_time primdual_int rel_kkt_error".split()
TOP="solution ticks polls handler".split()
SET="device linsys_solver allocate_solution verbose profiler_level warm_starting scaling polishing rho rho_is_vec sigma alpha cg_max_iter cg_tol_reduction cg_tol_fraction cg_precond adaptive_rho adaptive_rho_interval adaptive_rho_fraction adaptive_rho_tolerance max_iter eps_abs eps_rel eps_prim_inf eps_dual_inf scaled_termination check_termination check_dualgap time_limit delta polish_refine_iter".split()
REP="work.z_prev work.x_prev work.Ax work.Px work.Aty work.scaled_prim_res work.scaled_dual_res work.scaled_dual_gap work.xtPx work.qtx work.SC".split()
UI=REP+["info."+f for f in "iter obj_val dual_obj_val duality_gap prim_res dual_res primdual_int rel_kkt_error solve_time".split()]+["ticks"]
CT="info.status info.status_val info.obj_val work.delta_x work.delta_y".split()
OBJ="work.z_prev work.scaled_dual_gap work.xtPx work.qtx work.SC".split()
UR="settings.rho work.rho_vec work.rho_inv_vec work.rho_inv work.linsys work.clear_update_time info.update_time ticks".split()
AR=UR+"info.rho_estimate info.rho_updates work.rho_updated".split()
POST=sorted(set(UI+CT+OBJ+["info.rho_estimate"]))
# (name, binders, expr, changed)
E="(env : Env d K)"; C="(cfg : Cfg)"; S="(s : Solver d K)"
F=[
("toc",f"{E} {S}","(toc env s).2",["ticks"]),
("setStatus",f"{S} (v : ℤ)","setStatus s v",["info.status","info.status_val"]),
("coldStart",f"{S}","coldStart s",["work.x","work.y","work.z"]),
("setRhoVec",f"{S}","(setRhoVec s).1","settings.rho work.constr_type work.rho_vec work.rho_inv_vec".split()),
("updateRhoVec",f"{E} {S}","(updateRhoVec env s).1","settings.rho work.constr_type work.rho_vec work.rho_inv_vec work.linsys".split()),
("swapIterates",f"{S}","swapIterates s",["work."+f for f in "x z x_prev z_prev".split()]),
("updateX",f"(xt : Vec K d.n) {S}","updateX xt s",["work.x","work.delta_x"]),
("updateZ",f"(zt : Vec K d.m) {S}","updateZ zt s",["work.z"]),
("updateY",f"(zt : Vec K d.m) {S}","updateY zt s",["work.y","work.delta_y"]),
("admmStep",f"{E} {S}","admmStep env s",["work."+f for f in "x y z x_prev z_prev delta_x delta_y".split()]),
("computeObj",f"{S} (x : Vec K d.n) (y : Vec K d.m)","(computeObj s x y).1",OBJ),
("computePrimRes",f"{S} (x : Vec K d.n) (z : Vec K d.m)","(computePrimRes s x z).1","work.Ax work.z_prev work.scaled_prim_res".split()),
("computeDualRes",f"{S} (x : Vec K d.n) (y : Vec K d.m)","(computeDualRes s x y).1","work.Px work.Aty work.x_prev work.scaled_dual_res".split()),
("computeReport",f"{S} (x : Vec K d.n) (z y : Vec K d.m)","(computeReport s x z y).1",REP),
("updateInfo",f"{C} {E} (iter : ℤ) {S}","updateInfo cfg env iter s",UI),
("isPrimalInfeasible",f"{S} (eps : K)","(isPrimalInfeasible s eps).1",["work.delta_y"]),
("ctState",f"(approx : Bool) {S}","ctState approx s",["work.delta_y"]),
("checkTermination",f"(approx : Bool) {S}","(checkTermination approx s).1",CT),
("storeSolution",f"{S} (sol : Solution d K)","(storeSolution s sol).1",["work."+f for f in "x y z x_prev z_prev delta_x delta_y".split()]),
("storeOwnSolution",f"{S}","storeOwnSolution s",["solution"]+["work."+f for f in "x y z x_prev z_prev delta_x delta_y".split()]),
("clearUpdateTime",f"{S}","clearUpdateTime s",["work.clear_update_time","info.update_time"]),
("addUpdateTime",f"{E} {S}","addUpdateTime env s",["info.update_time","ticks"]),
("setRho",f"{S} (rho_new : K)","setRho s rho_new","settings.rho work.rho_vec work.rho_inv_vec work.rho_inv".split()),
("osqpUpdateRho",f"{C} {E} {S} (rho_new : K)","(osqpUpdateRho cfg env s rho_new).1",UR),
("adaptRho",f"{C} {E} {S}","(adaptRho cfg env s).1",AR),
("adaptDecision",f"{C} {E} (iter : ℤ) {S}","(adaptDecision cfg env iter s).1",["ticks","settings.adaptive_rho_interval"]),
("timeCheck",f"{C} {E} {S}","(timeCheck cfg env s).1",["ticks"]),
("intrCheck",f"{C} {E} {S}","(intrCheck cfg env s).1",["polls"]),
("adaptPhase",f"{C} {E} (ca : Bool) {S}","(adaptPhase cfg env ca s).1",AR+["work.last_rel_kkt"]),
("solveEntry",f"{C} {S}","(solveEntry cfg s).s","info.update_time work.rho_update_from_solve handler work.x work.y work.z".split()),
("postCheck",f"{C} {E} (iter : ℤ) (L : LoopSt d K)","postCheck cfg env iter L",sorted(set(UI+CT))),
("postObj",f"{S}","postObj s",OBJ+["info.obj_val","info.dual_obj_val","info.duality_gap"]),
("postMaxIter",f"{S}","postMaxIter s",CT),
("postTimeLimit",f"{C} {S}","postTimeLimit cfg s",CT),
("postRho",f"{C} {E} {S}","postRho cfg env s",["info.rho_estimate","info.solve_time","ticks"]),
("postLoop",f"{C} {E} (iter : ℤ) (L : LoopSt d K)","postLoop cfg env iter L",POST),
("polish",f"{C} {E} {S}","(polish cfg env s).1",REP+["info."+f for f in "status_polish polish_time rel_kkt_error obj_val dual_obj_val duality_gap prim_res dual_res".split()]+["work.x","work.y","work.z","ticks"]),
("postPolish",f"{C} {E} {S}","(postPolish cfg env s).1",REP+["info."+f for f in "status_polish polish_time rel_kkt_error obj_val dual_obj_val duality_gap prim_res dual_res".split()]+["work.x","work.y","work.z","ticks"]),
("postTiming",f"{C} {S}","postTiming cfg s","info.run_time work.first_run work.clear_update_time work.rho_update_from_solve".split()),
("endListener",f"{C} {S}","endListener cfg s",["handler"]),
]
out=["""import Verif.Lemmas.Term

/-!
# Frame lemmas (generated by tools/gen_frame.py): which fields each model function leaves unchanged
-/

set_option linter.unusedSectionVars false
set_option linter.unusedSimpArgs false
namespace Osqp
variable {K : Type*} [Field K] [LinearOrder K] {d : Dims}

macro "frame_tac" f:ident : tactic =>
  `(tactic| (unfold $f; (try dsimp only); (try split_ifs) <;> first | (simp; done) | (split <;> simp)))
"""]
US="".join(f"@[simp] theorem updateStatus_{f} (i : Info K) (v : ℤ) : (updateStatus i v).{f} = i.{f} := rfl\n" for f in INFO if f not in ("status","status_val"))
US+="@[simp] theorem updateStatus_status_val (i : Info K) (v : ℤ) : (updateStatus i v).status_val = v := rfl\n"
US+="@[simp] theorem setStatus_status_val (s : Solver d K) (v : ℤ) : (setStatus s v).info.status_val = v := rfl\n"
out.append(US)
SPECIAL={
"admmStep":"by\n  unfold admmStep; dsimp only; simp",
"checkTermination":"""by
  have c := checkTermination_cases approx s
  dsimp only at c
  rcases c with ⟨_, h⟩ | ⟨_, ⟨_, _, _, h⟩ | ⟨_, h⟩ | ⟨_, _, h⟩ | ⟨_, _, _, h⟩⟩ <;> rw [h] <;> (try split_ifs) <;> simp""",
"storeOwnSolution":"by\n  unfold storeOwnSolution; cases s.solution <;> simp",
}
import re
for (name,b,e,ch) in F:
    src="L.s" if "LoopSt" in b else "s"
    ch=set(ch)
    L=[]
    def lem(tag,proj): L.append((tag,proj))
    if not any(c.startswith("settings.") for c in ch): lem("settings","settings")
    else:
        for f in SET:
            if "settings."+f not in ch: lem("settings_"+f,"settings."+f)
    if not any(c.startswith("work.") for c in ch): lem("work","work")
    else:
        for f in WORK:
            if "work."+f not in ch: lem(f,"work."+f)
    if not any(c.startswith("info.") for c in ch): lem("info","info")
    else:
        for f in INFO:
            if "info."+f not in ch: lem("info_"+f,"info."+f)
    for f in TOP:
        if f not in ch: lem(f,f)
    stmt=" ∧\n  ".join(f"({e}).{p} = {src}.{p}" for _,p in L)
    proof=SPECIAL.get(name,f"by\n  frame_tac {name}")
    out.append(f"theorem {name}_frame {b} :\n  {stmt} := {proof}")
    args=" ".join(x for m in re.findall(r"\(([^:]*) :",b) for x in m.split())
    for k,(tag,p) in enumerate(L):
        acc=".2"*k+(".1" if k<len(L)-1 else "")
        out.append(f"@[simp] theorem {name}_{tag} {b} : ({e}).{p} = {src}.{p} := ({name}_frame {args}){acc}")
    out.append("")
out.append("end Osqp")
open("/verif/lean/Verif/Lemmas/Frame.lean","w").write("\n".join(out)+"\n")
print(len(out))
