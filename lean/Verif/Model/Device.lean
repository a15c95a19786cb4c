import Verif.Base.Fl

/-! Model of `/repo/xrd_simulator/cuda.py`. -/

namespace XRD

/-- the two device names the module ever stores (cuda.py:5, 53, 57) -/
inductive Dev where
  | cpu | cuda
  deriving DecidableEq

/-- Python's `str.isspace` characters, the ones `strip()` removes. -/
def pySpace (c : Char) : Bool :=
  (9 ≤ c.toNat && c.toNat ≤ 13) || (28 ≤ c.toNat && c.toNat ≤ 32) || c.toNat == 0x85 || c.toNat == 0xA0 || c.toNat == 0x1680 ||
    (0x2000 ≤ c.toNat && c.toNat ≤ 0x200A) || c.toNat == 0x2028 || c.toNat == 0x2029 || c.toNat == 0x202F ||
    c.toNat == 0x205F || c.toNat == 0x3000

/-- `str.strip()` -/
def pyStrip (s : List Char) : List Char := ((s.dropWhile pySpace).reverse.dropWhile pySpace).reverse

/-- `str.lower()`.  Simplification: only ASCII letters are lowered; no other character is lowered to a letter occurring in the
names the result is compared with. -/
def pyLower (s : List Char) : List Char := s.map Char.toLower

/-- The module's global `_device` and torch's default device (cuda.py:4-5). -/
structure DeviceState where
  selected : Dev
  torchDefault : Dev

/-- state after `import` (cuda.py:4-5) -/
def DeviceState.start : DeviceState := ⟨.cpu, .cpu⟩

/-- One call: the argument (`str(device)`, or `None`), and what `torch.cuda.is_available()` answers at lines 41 and 52. -/
structure DeviceCall where
  arg : Option (List Char)
  availAuto : Bool
  avail : Bool

/-- lines 36-49: does the call want the GPU, or is the name invalid -/
def DeviceCall.wantGpu (c : DeviceCall) : Except PyErr Bool :=
  match c.arg.map fun s => pyStrip (pyLower s) with
  | none => .ok c.availAuto
  | some d =>
    if d = "auto".toList then .ok c.availAuto
    else if d = "gpu".toList ∨ d = "cuda".toList then .ok true
    else if d = "cpu".toList then .ok false
    else .error .valueError

/-- `configure_device` (cuda.py:8-65): outcome and new state.  The printed messages are not modelled. -/
def configureDevice (c : DeviceCall) (st : DeviceState) : Except PyErr Dev × DeviceState :=
  match c.wantGpu with
  | .error e => (.error e, st)
  | .ok want =>
    let d := if want ∧ c.avail then Dev.cuda else Dev.cpu
    (.ok d, ⟨d, d⟩)

/-- a history of calls: the outcomes in order, and the final state -/
def runDevice : List DeviceCall → DeviceState → List (Except PyErr Dev) × DeviceState
  | [], st => ([], st)
  | c :: cs, st =>
    let r := configureDevice c st
    let rest := runDevice cs r.2
    (r.1 :: rest.1, rest.2)

/-- `get_selected_device` (cuda.py:68-70) -/
def getSelectedDevice (st : DeviceState) : Dev := st.selected

end XRD
