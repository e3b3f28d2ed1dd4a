import Verif.Model.Solve

/-! # The getters (/repo/src/ida_io.rs) -/

set_option autoImplicit false

namespace Verif

universe u v

section
variable {ν : Type v} {n q : Nat} {K : Type u} [Scalar K]

/-- `get_yy` (/repo/src/ida_io.rs:11-13). -/
def getYy (s : State ν n q K) : Vec n K := s.m.yy
/-- `get_yp` (/repo/src/ida_io.rs:16-18). -/
def getYp (s : State ν n q K) : Vec n K := s.m.yp
/-- `get_last_order` (/repo/src/ida_io.rs:21-23). -/
def getLastOrder (s : State ν n q K) : Nat := s.c.kused
/-- `get_current_order` (/repo/src/ida_io.rs:26-28). -/
def getCurrentOrder (s : State ν n q K) : Nat := s.c.kk
/-- `get_actual_init_step` (/repo/src/ida_io.rs:31-33). -/
def getActualInitStep (s : State ν n q K) : K := s.h0u
/-- `get_last_step` (/repo/src/ida_io.rs:37-39). -/
def getLastStep (s : State ν n q K) : K := s.c.hused
/-- `get_current_setp` (sic; /repo/src/ida_io.rs:42-44). -/
def getCurrentStep (s : State ν n q K) : K := s.c.hh
/-- `get_current_time` (/repo/src/ida_io.rs:47-49). -/
def getCurrentTime (s : State ν n q K) : K := s.e.tn
/-- `get_tol_scale_factor` (/repo/src/ida_io.rs:53-55). -/
def getTolScaleFactor (s : State ν n q K) : K := s.tolsf
/-- `get_num_steps` (/repo/src/ida_io.rs:58-60). -/
def getNumSteps (s : State ν n q K) : Nat := s.cnt.nst
/-- `get_num_res_evals` (/repo/src/ida_io.rs:64-66). -/
def getNumResEvals (s : State ν n q K) : Nat := s.m.nre
/-- `get_num_lin_solv_setups` (/repo/src/ida_io.rs:70-72). -/
def getNumLinSolvSetups (s : State ν n q K) : Nat := s.m.nsetups
/-- `get_num_err_test_fails` (/repo/src/ida_io.rs:75-77). -/
def getNumErrTestFails (s : State ν n q K) : Nat := s.cnt.netf
/-- `get_num_jac_evals` (/repo/src/ida_io.rs:80-82). -/
def getNumJacEvals (s : State ν n q K) : Nat := s.m.nje
/-- `get_num_nonlin_solv_iters` (/repo/src/ida_io.rs:84-88). -/
def getNumNonlinSolvIters (cfg : Cfg ν n q K) (s : State ν n q K) : Nat := s.cnt.nni + cfg.nls.numIters s.nls
/-- `get_num_lin_res_evals` (/repo/src/ida_io.rs:92-94): `nre_dq`, which is zero from the start (/repo/src/ida_ls.rs:196)
and never changed, as the Jacobian is always the user's. -/
def getNumLinResEvals (_s : State ν n q K) : Nat := 0
/-- `get_num_lin_iters` (/repo/src/ida_io.rs:97-100): the counter is commented out. -/
def getNumLinIters (_s : State ν n q K) : Nat := 0
/-- `get_num_nonlin_solv_conv_fails` (/repo/src/ida_io.rs:103-105). -/
def getNumNonlinSolvConvFails (s : State ν n q K) : Nat := s.cnt.ncfn
/-- `get_num_g_evals` (/repo/src/ida_io.rs:108-110). -/
def getNumGEvals (s : State ν n q K) : Nat := s.r.nge
/-- `get_root_info` (/repo/src/ida_io.rs:115-117). -/
def getRootInfo (s : State ν n q K) : Vec q K := s.r.iroots

end

end Verif
