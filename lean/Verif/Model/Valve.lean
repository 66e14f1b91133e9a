import Mathlib.Algebra.Order.Field.Basic

/-!
# Openings of three-way valves

Model of the port factors of `Valve_3w` (`multisim/parts/mixingvalve.py`) and `PipeWithValve`
(`multisim/parts/pipe_with_valve.py`).
-/

namespace Verif.Valve

variable {K : Type*} [Field K] [LinearOrder K]

/-- Settings: initial opening of port A and the limits. -/
structure Cfg (K : Type*) where
  init : K
  llim : K
  ulim : K

/-- `pf_arr[0]` and `pf_arr[1]`. -/
structure Pf (K : Type*) where
  a : K
  b : K

/-- The checks of `Valve_3w.init_part`, `mixingvalve.py:264-270` and `308-321`. -/
def accepts3w (c : Cfg K) : Prop := (0 ≤ c.init ∧ c.init ≤ 1) ∧ (0 ≤ c.llim ∧ c.llim < c.ulim ∧ c.ulim ≤ 1)

/-- The checks of `PipeWithValve.init_part`, `pipe_with_valve.py:166-179`, and of `_initialize_actuator`,
`simenv.py:1130-1165`: the limits are only checked to be numbers. -/
def acceptsPipe (c : Cfg K) : Prop := 0 ≤ c.init ∧ c.init ≤ 1

/-- Initial openings, `mixingvalve.py:272-283`, `pipe_with_valve.py:180-181`; the same after a reset,
`mixingvalve.py:404-414`. -/
def start (c : Cfg K) : Pf K := ⟨c.init, 1 - c.init⟩

/-- `_process_cv`, `mixingvalve.py:615-626`, `pipe_with_valve.py:382-393`. -/
def processCv (c : Cfg K) (cv : K) : Pf K :=
  let a := if cv < c.llim then c.llim else if c.ulim < cv then c.ulim else cv
  ⟨a, 1 - a⟩

/-- What happens to the openings during and between simulations: a controller action or a reset. -/
inductive Act (K : Type*) where
  | control (cv : K)
  | reset

def act (c : Cfg K) (_ : Pf K) : Act K → Pf K
  | .control cv => processCv c cv
  | .reset => start c

/-- Any sequence of actions after initialisation. -/
def run (c : Cfg K) (l : List (Act K)) : Pf K := l.foldl (act c) (start c)

/-- The pipe with valve has no reset of its own: `Pipe._reset_to_init_cond`, `pipe.py:499-501`, leaves the
openings as they are, although `_pf_arr_init` is stored for this purpose (`pipe_with_valve.py:183`). -/
def actPipe (c : Cfg K) (p : Pf K) : Act K → Pf K
  | .control cv => processCv c cv
  | .reset => p

def runPipe (c : Cfg K) (l : List (Act K)) : Pf K := l.foldl (actPipe c) (start c)

/-- The check of the limits made by the topology analysis for routines that divide,
`simenv.py:2431-2481`. -/
def divisionCheck (c : Cfg K) : Prop := c.llim ≠ 0 ∧ c.ulim ≠ 0

end Verif.Valve
