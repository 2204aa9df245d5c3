import Mathlib.Data.Fin.Basic
import Mathlib.Logic.Function.Basic

/-! Model of `dynamic.c`: the functions that load `sat_code.dll` at run time and call the propagators in it.

The library is the only thing the functions know of the world.  `LoadLibrary` maps it at some address or fails; which of the two happens may differ from
call to call (`World.load`, indexed by the number of calls made so far).  `GetProcAddress` gives an address inside the mapping, or `NULL` if the
library does not export the ordinal; what is exported may differ from load to load, since the file may be replaced while it is not loaded.  A call
through a pointer is undefined unless the library is mapped now at the address the pointer was made from and exports that ordinal: then the result is
`none`.  The reference count that Windows keeps for other users of the same library is not modelled: the program is taken to be the only user. -/

namespace SatSky.Dyn

/-- A mapping of the library: where it is, and what it exports. -/
structure Mapping where
  base : ℕ
  exports : ℕ → Bool

/-- The world: the outcome of the `n`-th call of `LoadLibrary`, and the return values of the propagators in the library, `SXPX` 102 (they are
arbitrary; what they compute is the subject of other properties). -/
structure World where
  load : ℕ → Option Mapping
  answer : ℕ → ℤ
  version : ℤ

/-- A pointer obtained from `GetProcAddress`: made from the mapping at `base`, for the exported `ordinal`. -/
structure Ptr where
  base : ℕ
  ordinal : ℕ
deriving DecidableEq

/-- The static variables of `dynamic.c`: `h_sat_code_lib`, `first_time` (30-31), `func`, `already_done` of `SXPX_init` (54-55) and of `SXPX` (88-89).
`loads` counts the calls of `LoadLibrary`; `mapped` is what is mapped. -/
structure State where
  handle : Option Mapping
  firstTime : Bool
  initFunc : Fin 5 → Option Ptr
  initDone : Fin 5 → Bool
  runFunc : Fin 5 → Option Ptr
  runDone : Fin 5 → Bool
  loads : ℕ
  mapped : Option Mapping

/-- The static variables before the first call. -/
def State.start : State where
  handle := none
  firstTime := true
  initFunc := fun _ => none
  initDone := fun _ => false
  runFunc := fun _ => none
  runDone := fun _ => false
  loads := 0
  mapped := none

/-- `dynamic.c` 34-40 `load_sat_code_lib( -1)`.  `FreeLibrary` unmaps the library. -/
def unloadLib (s : State) : State :=
  { s with handle := none, firstTime := true, mapped := if s.handle.isSome then none else s.mapped }

/-- `dynamic.c` 41-46 `load_sat_code_lib( 0)`. -/
def loadLib (w : World) (s : State) : State :=
  if s.firstTime then { s with handle := w.load s.loads, firstTime := false, loads := s.loads + 1, mapped := w.load s.loads } else s

/-- `GetProcAddress`. -/
def getProc (m : Mapping) (ordinal : ℕ) : Option Ptr := if m.exports ordinal then some ⟨m.base, ordinal⟩ else none

/-- Whether a call through the pointer is defined. -/
def live (s : State) (p : Ptr) : Bool :=
  match s.mapped with
  | some m => m.base == p.base && m.exports p.ordinal
  | none => false

/-- `dynamic.c` 76-79, 98-101: call the function if there is one; `r` is what it returns. -/
def call (s : State) (q : Option Ptr) (r : Ptr → ℤ) : Option ℤ :=
  match q with
  | some p => if live s p then some (r p) else none
  | none => some (-1)

/-- `dynamic.c` 58-66: `SXPX_init` with `params == NULL`. -/
def unload (s : State) : State := { unloadLib s with initDone := fun _ => false }

/-- `dynamic.c` 71-73, 93-95: `func[sxpx_num]` is set only if there is a library. -/
def store (h : Option Mapping) (func : Fin 5 → Option Ptr) (k : Fin 5) (ordinal : ℕ) : Fin 5 → Option Ptr :=
  match h with
  | some m => Function.update func k (getProc m ordinal)
  | none => func

/-- `dynamic.c` 68-75: look the function up once. -/
def lookInit (s : State) (k : Fin 5) : State :=
  if s.initDone k then s
  else
    { s with
      initFunc := store s.handle s.initFunc k (k + 1)
      initDone := Function.update s.initDone k true }

/-- `dynamic.c` 91-97. -/
def lookRun (s : State) (k : Fin 5) : State :=
  if s.runDone k then s
  else
    { s with
      runFunc := store s.handle s.runFunc k (k + 6)
      runDone := Function.update s.runDone k true }

/-- `dynamic.c` 51-82 `SXPX_init`, `params` not `NULL`.  An index outside the arrays is undefined. -/
def SXPX_init (w : World) (s : State) (num : ℤ) : Option (State × ℤ) :=
  if h : 0 ≤ num ∧ num < 5 then
    let k : Fin 5 := ⟨num.toNat, by omega⟩
    let s := lookInit (loadLib w s) k
    (call s (s.initFunc k) fun _ => 0).map fun rval => (s, if s.handle.isNone then -2 else rval)
  else none

/-- `dynamic.c` 84-105 `SXPX`. -/
def SXPX (w : World) (s : State) (num : ℤ) : Option (State × ℤ) :=
  if h : 0 ≤ num ∧ num < 5 then
    let k : Fin 5 := ⟨num.toNat, by omega⟩
    let s := lookRun (loadLib w s) k
    (call s (s.runFunc k) fun p => w.answer p.ordinal).map fun rval => (s, if s.handle.isNone then -2 else rval)
  else none

/-- `dynamic.c` 107-127 `get_sat_code_lib_version`. -/
def libVersion (w : World) (s : State) : Option (State × ℤ) :=
  let s := loadLib w s
  match s.handle with
  | none => some (s, -2)
  | some m =>
    match getProc m 20 with
    | none => some (s, -1)
    | some p => if live s p then some (s, w.version) else none

/-- What a program can ask for. -/
inductive Op where
  | init (num : ℤ)
  | run (num : ℤ)
  | version
  | unload

/-- One request and its answer; `SXPX_init` with `NULL` returns 0 (65). -/
def step (w : World) (s : State) : Op → Option (State × ℤ)
  | .init num => SXPX_init w s num
  | .run num => SXPX w s num
  | .version => libVersion w s
  | .unload => some (unload s, 0)

/-- A sequence of requests from the start of the program, with the answers. -/
def session (w : World) : State → List Op → Option (State × List ℤ)
  | s, [] => some (s, [])
  | s, op :: ops => (step w s op).bind fun r => (session w r.1 ops).map fun q => (q.1, r.2 :: q.2)

end SatSky.Dyn
