import Verif.Model.Device
import Verif.Model.Progress

/-! Model of `return_device_memory` (utils.py:731-770) and `print_memory_report` (utils.py:631-728).  `torch` is imported
unconditionally (utils.py:80), so the branches for `torch is None` (lines 638-640, 733-734) are not modelled. -/

namespace XRD

/-- the dictionary both functions return (utils.py:745-749, 757-769) -/
@[ext] structure MemReport where
  device : List Char
  availableGb : ℝ
  freeGb : ℝ

/-- what the operating system and the CUDA driver answer.  `ram` is psutil's (total, available), `none` if psutil raises;
`current` is `torch.cuda.current_device()`, `none` if it raises; `props i` is (total, allocated, reserved) of device `i`. -/
structure MemEnv where
  ram : Option (ℕ × ℕ)
  cudaAvailable : Bool
  current : Option ℕ
  props : ℕ → Option (ℕ × ℕ × ℕ)

/-- bytes as GB (`/ (1024**3)`) -/
noncomputable def gb (b : ℕ) : ℝ := (b : ℝ) / 1024 ^ 3

/-- `return_device_memory` (utils.py:731-770).  The error is the one `torch.cuda.current_device()` raises again inside the
handler (line 767). -/
noncomputable def returnDeviceMemory (st : DeviceState) (e : MemEnv) : Except PyErr MemReport :=
  match getSelectedDevice st with
  | .cpu =>
    match e.ram with
    | some (t, a) => .ok ⟨"cpu".toList, gb t, gb a⟩
    | none => .ok ⟨"cpu".toList, 0, 0⟩
  | .cuda =>
    match e.current.bind fun i => (e.props i).map fun p => (i, p) with
    | some (i, (t, _, r)) => .ok ⟨"cuda:".toList ++ natText i, gb t, gb t - gb r⟩
    | none =>
      if e.cudaAvailable then
        match e.current with
        | some i => .ok ⟨"cuda:".toList ++ natText i, 0, 0⟩
        | none => .error .runtimeError
      else .ok ⟨"cuda:unknown".toList, 0, 0⟩

/-- a tensor as the report sees it (utils.py:683-698): its name, `str(device)` and the numbers of elements and of bytes of an
element.  dtype, shape and the gradient flag are only printed and are not modelled; how the name is found (`_tensor_name`,
lines 668-679) is not modelled. -/
structure TensorInfo where
  name : List Char
  device : List Char
  elements : ℕ
  elementSize : ℕ
  deriving DecidableEq

/-- `obj.device.type`: the text of the device before the colon (utils.py:686) -/
def TensorInfo.devType (t : TensorInfo) : List Char := t.device.takeWhile (· ≠ ':')

/-- `nbytes` (utils.py:691) -/
def TensorInfo.bytes (t : TensorInfo) : ℕ := t.elements * t.elementSize

/-- `"cpu" in t["device"]` (utils.py:711) -/
def TensorInfo.onCpu (t : TensorInfo) : Bool := decide ("cpu".toList <:+: t.device)

/-- an object the garbage collector tracks (utils.py:683): something else, an object whose inspection raises (lines 701-702), a
tensor -/
inductive GcObj where
  | other
  | broken
  | tensor (t : TensorInfo)

/-- the loop over the tracked objects (utils.py:682-702) -/
def collectTensors (includeCpu includeCuda : Bool) : List GcObj → List TensorInfo
  | [] => []
  | .tensor t :: os =>
    if (t.devType = "cpu".toList ∧ ¬ includeCpu = true) ∨ (t.devType = "cuda".toList ∧ ¬ includeCuda = true) then
      collectTensors includeCpu includeCuda os
    else t :: collectTensors includeCpu includeCuda os
  | _ :: os => collectTensors includeCpu includeCuda os

/-- what is printed.  `cpuTotal` is the line "CPU tensors" (bytes, number), absent if the CPU is excluded; `listed` are the
lines below "Top tensors by size"; both absent for "No tensors tracked".  `gpu` is the heading (device, total, allocated,
reserved, free, utilisation), absent for "CUDA not available or excluded". -/
structure MemPrinted where
  gpu : Option (ℕ × ℝ × ℝ × ℝ × ℝ × ℝ)
  body : Option (Option (ℕ × ℕ) × List TensorInfo)

/-- the listed tensors: sorted, largest first, then cut (utils.py:708-710; `list.sort(reverse=True)` is stable) -/
def listedTensors (limit : Option ℤ) (ts : List TensorInfo) : List TensorInfo :=
  let sorted := ts.mergeSort fun a b => decide (b.bytes ≤ a.bytes)
  match limit with
  | some k => if k > 0 then sorted.take k.toNat else sorted
  | none => sorted

/-- `print_memory_report` (utils.py:631-728): what is returned and what is printed.  Line 647 is outside any handler: it raises
for a device that does not exist. -/
noncomputable def printMemoryReport (st : DeviceState) (e : MemEnv) (deviceIndex : ℕ) (includeCpu includeCuda : Bool)
    (limit : Option ℤ) (objs : List GcObj) : Except PyErr (MemReport × MemPrinted) :=
  match returnDeviceMemory st e with
  | .error err => .error err
  | .ok report =>
    match (if getSelectedDevice st = .cuda ∧ includeCuda = true then
        (match e.props deviceIndex with
        | some (t, a, r) =>
          .ok (some (deviceIndex, gb t, gb a, gb r, gb t - gb r, if gb t ≠ 0 then gb a / gb t * 100 else 0))
        | none => .error .assertion)
      else .ok none : Except PyErr _) with
    | .error err => .error err
    | .ok gpu =>
      match collectTensors includeCpu includeCuda objs with
      | [] => .ok (report, ⟨gpu, none⟩)
      | t :: ts =>
        let listed := listedTensors limit (t :: ts)
        let cpu := if includeCpu = true then
            some (((listed.filter fun t => t.onCpu).map fun t => t.bytes).sum, (listed.filter fun t => t.onCpu).length)
          else none
        .ok (report, ⟨gpu, some (cpu, listed)⟩)

end XRD
