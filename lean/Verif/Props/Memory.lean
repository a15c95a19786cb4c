import Verif.Model.Memory
import Mathlib.Data.List.Sort

/-! C97: the memory report. -/

namespace XRD

/-- Specification: a tensor in main memory, and one on a GPU -/
def Spec.InRam (t : TensorInfo) : Prop := t.device = "cpu".toList
/-- Specification: a tensor on a GPU -/
def Spec.OnGpu (t : TensorInfo) : Prop := ∃ n : ℕ, t.device = "cuda:".toList ++ natText n

/-- Specification: the tracked tensors, without those the caller excludes -/
noncomputable def Spec.wanted (cpu cuda : Bool) (objs : List GcObj) : List TensorInfo :=
  (objs.filterMap fun o => match o with
    | .tensor t => some t
    | _ => none).filter fun t =>
      open scoped Classical in decide ((Spec.InRam t → cpu = true) ∧ (Spec.OnGpu t → cuda = true))

/-- Specification: every tracked tensor lives in main memory or on a GPU -/
def Spec.TorchDevices (objs : List GcObj) : Prop :=
  ∀ t, GcObj.tensor t ∈ objs → Spec.InRam t ∨ Spec.OnGpu t

theorem cpu_type {t : TensorInfo} (h : Spec.InRam t) : t.devType = "cpu".toList := by
  unfold TensorInfo.devType; rw [h]; decide

theorem gpu_type {t : TensorInfo} (h : Spec.OnGpu t) : t.devType = "cuda".toList := by
  obtain ⟨n, h⟩ := h
  unfold TensorInfo.devType; rw [h]; simp [List.takeWhile]

theorem gpu_not_ram {t : TensorInfo} (h : Spec.OnGpu t) : ¬ Spec.InRam t := by
  intro h'
  have := (cpu_type h').symm.trans (gpu_type h)
  revert this; decide

theorem onCpu_iff {t : TensorInfo} (h : Spec.InRam t ∨ Spec.OnGpu t) : t.onCpu = true ↔ Spec.InRam t := by
  constructor
  · intro hc
    rcases h with h | h
    · exact h
    · exfalso
      obtain ⟨n, h⟩ := h
      have hc : "cpu".toList <:+: t.device := by simpa [TensorInfo.onCpu] using hc
      rw [h] at hc
      have hp : 'p' ∈ "cuda:".toList ++ natText n := hc.subset (by decide)
      rcases List.mem_append.mp hp with hp | hp
      · revert hp; decide
      · have := Nat.isDigit_of_mem_toDigits (b := 10) (n := n) (by norm_num) (by norm_num) hp
        revert this; decide
  · intro hr
    unfold TensorInfo.onCpu
    rw [hr]; decide

theorem collect_wanted (cpu cuda : Bool) : ∀ objs, Spec.TorchDevices objs →
    collectTensors cpu cuda objs = Spec.wanted cpu cuda objs := by
  intro objs
  induction objs with
  | nil => intro _; rfl
  | cons o os ih =>
    intro h
    have ih := ih (fun t ht => h t (List.mem_cons_of_mem _ ht))
    cases o with
    | other => simpa [collectTensors, Spec.wanted] using ih
    | broken => simpa [collectTensors, Spec.wanted] using ih
    | tensor t =>
      have e : ((t.devType = "cpu".toList ∧ ¬ cpu = true) ∨ (t.devType = "cuda".toList ∧ ¬ cuda = true)) ↔
          ¬ ((Spec.InRam t → cpu = true) ∧ (Spec.OnGpu t → cuda = true)) := by
        rcases h t List.mem_cons_self with hr | hg
        · have h1 := cpu_type hr
          have h2 : ¬ Spec.OnGpu t := fun hg => gpu_not_ram hg hr
          have h3 : ¬ t.devType = "cuda".toList := by rw [h1]; decide
          tauto
        · have h1 := gpu_type hg
          have h2 := gpu_not_ram hg
          have h3 : ¬ t.devType = "cpu".toList := by rw [h1]; decide
          tauto
      unfold collectTensors
      by_cases c : (Spec.InRam t → cpu = true) ∧ (Spec.OnGpu t → cuda = true)
      · rw [if_neg (fun hx => (e.mp hx) c), ih]
        unfold Spec.wanted; rw [List.filterMap_cons]; dsimp only
        rw [List.filter_cons_of_pos (by simpa using c)]
      · rw [if_pos (e.mpr c), ih]
        unfold Spec.wanted; rw [List.filterMap_cons]; dsimp only
        rw [List.filter_cons_of_neg (by simpa using c)]

/-- Specification: the memory a tensor takes: its number of elements times the bytes of an element -/
def Spec.memory (t : TensorInfo) : ℕ := t.elements * t.elementSize

/-- Specification: `listed` are the `limit` largest of `all` (all of them without a positive limit), largest first -/
def Spec.Largest (limit : Option ℤ) (all listed : List TensorInfo) : Prop :=
  ∃ rest, (listed ++ rest).Perm all ∧
    listed.Pairwise (fun a b => Spec.memory b ≤ Spec.memory a) ∧
    (∀ a ∈ listed, ∀ b ∈ rest, Spec.memory b ≤ Spec.memory a) ∧
    (∀ k : ℕ, 0 < k → limit = some (k : ℤ) → listed.length = min k all.length) ∧
    ((∀ k : ℕ, 0 < k → limit ≠ some (k : ℤ)) → rest = [])

theorem listed_largest (limit : Option ℤ) (ts : List TensorInfo) : Spec.Largest limit ts (listedTensors limit ts) := by
  have hs : (ts.mergeSort fun a b => decide (b.bytes ≤ a.bytes)).Pairwise (fun a b => b.bytes ≤ a.bytes) := by
    have := List.pairwise_mergeSort (le := fun a b : TensorInfo => decide (b.bytes ≤ a.bytes))
      (by intro a b c h1 h2; simp only [decide_eq_true_eq] at *; omega)
      (by intro a b; simp only [Bool.or_eq_true, decide_eq_true_eq]; omega) ts
    simpa using this
  have hp := List.mergeSort_perm ts (fun a b => decide (b.bytes ≤ a.bytes))
  set s := ts.mergeSort fun a b => decide (b.bytes ≤ a.bytes) with hsdef
  have hall : ∀ (h : ∀ k : ℕ, 0 < k → limit ≠ some (k : ℤ)), Spec.Largest limit ts s := by
    intro h
    exact ⟨[], by simpa using hp, hs, by simp, fun k hk e => absurd e (h k hk), fun _ => rfl⟩
  unfold listedTensors
  cases limit with
  | none => exact hall (by simp)
  | some k =>
    dsimp only
    split_ifs with hk
    · refine ⟨s.drop k.toNat, by rw [List.take_append_drop]; exact hp, hs.sublist (List.take_sublist _ _), ?_, ?_, ?_⟩
      · intro a ha b hb
        have := hs
        rw [← List.take_append_drop k.toNat s, List.pairwise_append] at this
        exact this.2.2 a ha b hb
      · intro k' _ e
        have : k = k' := by simpa using e
        rw [List.length_take, ← hsdef, hp.length_eq, this]; simp
      · intro h
        exact absurd rfl (h k.toNat (by omega) |> fun h => by rw [Int.toNat_of_nonneg hk.le] at h; exact h)
    · exact hall (by intro k' hk' e; have : k = k' := by simpa using e
                     omega)

theorem print_ok {st : DeviceState} {e : MemEnv} {di : ℕ} {ic iu : Bool} {limit : Option ℤ} {objs : List GcObj}
    {r : MemReport} {p : MemPrinted} (h : printMemoryReport st e di ic iu limit objs = .ok (r, p)) :
    returnDeviceMemory st e = .ok r ∧
    p.body = match collectTensors ic iu objs with
      | [] => none
      | t :: ts => some (if ic = true then some ((((listedTensors limit (t :: ts)).filter fun t => t.onCpu).map fun t => t.bytes).sum,
          ((listedTensors limit (t :: ts)).filter fun t => t.onCpu).length) else none, listedTensors limit (t :: ts)) := by
  unfold printMemoryReport at h
  cases hr : returnDeviceMemory st e with
  | error err => rw [hr] at h; simp at h
  | ok r' =>
    rw [hr] at h
    dsimp only at h
    split at h
    · simp at h
    · cases hc : collectTensors ic iu objs with
      | nil =>
        rw [hc] at h
        simp only [Except.ok.injEq, Prod.mk.injEq] at h
        obtain ⟨h1, h2⟩ := h
        subst h1 h2
        exact ⟨rfl, rfl⟩
      | cons t ts =>
        rw [hc] at h
        simp only [Except.ok.injEq, Prod.mk.injEq] at h
        obtain ⟨h1, h2⟩ := h
        subst h1 h2
        exact ⟨rfl, rfl⟩

/-- C97: `print_memory_report` lists the largest of the tracked tensors on the devices asked for, largest first, as many as asked
for (all of them without a positive limit), and reports that nothing is tracked exactly if there are none. -/
theorem C97_lists_the_largest {st : DeviceState} {e : MemEnv} {di : ℕ} {ic iu : Bool} {limit : Option ℤ} {objs : List GcObj}
    (hd : Spec.TorchDevices objs) {r : MemReport} {p : MemPrinted}
    (h : printMemoryReport st e di ic iu limit objs = .ok (r, p)) :
    (p.body = none ↔ Spec.wanted ic iu objs = []) ∧
    (∀ cpu listed, p.body = some (cpu, listed) → Spec.Largest limit (Spec.wanted ic iu objs) listed ∧
      (cpu = none ↔ ic = false)) := by
  obtain ⟨_, hb⟩ := print_ok h
  rw [collect_wanted ic iu objs hd] at hb
  cases hw : Spec.wanted ic iu objs with
  | nil => rw [hw] at hb; rw [hb]; simp
  | cons t ts =>
    rw [hw] at hb; rw [hb]
    refine ⟨by simp, ?_⟩
    intro cpu listed hx
    simp only [Option.some.injEq, Prod.mk.injEq] at hx
    obtain ⟨h1, h2⟩ := hx
    subst h2
    refine ⟨listed_largest limit _, ?_⟩
    rw [← h1]
    cases ic <;> simp

/-- Specification: what the machine reports about the memory of the selected device -/
inductive Spec.MemoryOf (st : DeviceState) (e : MemEnv) (r : MemReport) : Prop
  /-- main memory, if psutil answers -/
  | ram (total free : ℕ) (h : st.selected = .cpu) (ha : e.ram = some (total, free)) (hd : r.device = "cpu".toList)
      (ht : r.availableGb * 1024 ^ 3 = total) (hf : r.freeGb * 1024 ^ 3 = free)
  /-- main memory, unknown -/
  | ramUnknown (h : st.selected = .cpu) (ha : e.ram = none) (hd : r.device = "cpu".toList)
      (ht : r.availableGb = 0) (hf : r.freeGb = 0)
  /-- the current GPU -/
  | gpu (i total allocated reserved : ℕ) (h : st.selected = .cuda) (hc : e.current = some i)
      (ha : e.props i = some (total, allocated, reserved)) (hd : r.device = "cuda:".toList ++ natText i)
      (ht : r.availableGb * 1024 ^ 3 = total) (hf : r.freeGb * 1024 ^ 3 = total - reserved)
  /-- a GPU that does not answer -/
  | gpuUnknown (h : st.selected = .cuda) (ha : ∀ i, e.current = some i → e.props i = none)
      (ht : r.availableGb = 0) (hf : r.freeGb = 0)

theorem gb_bytes (b : ℕ) : gb b * 1024 ^ 3 = b := by unfold gb; field_simp

/-- C97: both functions return the memory of the selected device as the system reports it: the total, and what is available (main
memory) or not reserved (GPU), in units of 2³⁰ bytes; zero where the system does not answer. -/
theorem C97_returns_the_memory {st : DeviceState} {e : MemEnv} {r : MemReport} (h : returnDeviceMemory st e = .ok r) :
    Spec.MemoryOf st e r := by
  unfold returnDeviceMemory getSelectedDevice at h
  cases hs : st.selected with
  | cpu =>
    rw [hs] at h
    cases ha : e.ram with
    | none =>
      rw [ha] at h
      simp only [Except.ok.injEq] at h
      subst h
      exact .ramUnknown hs ha rfl rfl rfl
    | some ta =>
      obtain ⟨t, a⟩ := ta
      rw [ha] at h
      simp only [Except.ok.injEq] at h
      subst h
      exact .ram t a hs ha rfl (gb_bytes t) (gb_bytes a)
  | cuda =>
    rw [hs] at h
    dsimp only at h
    cases hc : e.current with
    | none =>
      rw [hc] at h
      simp only [Option.bind_none] at h
      split_ifs at h
      simp only [Except.ok.injEq] at h
      subst h
      exact .gpuUnknown hs (by simp [hc]) rfl rfl
    | some i =>
      rw [hc] at h
      cases hp : e.props i with
      | none =>
        simp only [Option.bind_some, hp, Option.map_none] at h
        split_ifs at h
        all_goals
          simp only [Except.ok.injEq] at h
          subst h
          refine .gpuUnknown hs ?_ rfl rfl
          intro j hj
          rw [hc] at hj
          simp only [Option.some.injEq] at hj
          rw [← hj]; exact hp
      | some tar =>
        obtain ⟨t, a, rr⟩ := tar
        simp only [Option.bind_some, hp, Option.map_some, Except.ok.injEq] at h
        subst h
        refine .gpu i t a rr hs hc hp rfl (gb_bytes t) ?_
        rw [sub_mul, gb_bytes, gb_bytes]

/-- C97: the printed report returns exactly what `return_device_memory` returns, whatever it is asked to list. -/
theorem C97_report_returns_the_memory {st : DeviceState} {e : MemEnv} {di : ℕ} {ic iu : Bool} {limit : Option ℤ}
    {objs : List GcObj} {r : MemReport} {p : MemPrinted} (h : printMemoryReport st e di ic iu limit objs = .ok (r, p)) :
    returnDeviceMemory st e = .ok r := (print_ok h).1

/-- C97: on the CPU both functions always succeed; with a GPU selected the memory is returned unless the driver answers neither
which device is current nor that there is none, and the report also needs the device asked for, unless GPUs are excluded. -/
theorem C97_succeeds_iff (st : DeviceState) (e : MemEnv) (di : ℕ) (ic iu : Bool) (limit : Option ℤ) (objs : List GcObj) :
    ((∃ r, returnDeviceMemory st e = .ok r) ↔ (st.selected = .cuda → e.current = none → e.cudaAvailable = false)) ∧
    ((∃ rp, printMemoryReport st e di ic iu limit objs = .ok rp) ↔
      (st.selected = .cuda → (e.current = none → e.cudaAvailable = false) ∧ (iu = true → (e.props di).isSome = true))) := by
  have h1 : (∃ r, returnDeviceMemory st e = .ok r) ↔ (st.selected = .cuda → e.current = none → e.cudaAvailable = false) := by
    unfold returnDeviceMemory getSelectedDevice
    cases hs : st.selected with
    | cpu => cases e.ram <;> simp
    | cuda =>
      cases hc : e.current with
      | none => cases ha : e.cudaAvailable <;> simp
      | some i => cases hp : e.props i <;> cases ha : e.cudaAvailable <;> simp [hp]
  refine ⟨h1, ?_⟩
  unfold printMemoryReport
  cases hr : returnDeviceMemory st e with
  | error err =>
    have : ¬ (st.selected = .cuda → e.current = none → e.cudaAvailable = false) := by
      rw [← h1, hr]; simp
    simp only [reduceCtorEq, exists_false, false_iff]
    intro h
    exact this (fun hs => (h hs).1)
  | ok r =>
    have h2 : st.selected = .cuda → e.current = none → e.cudaAvailable = false := h1.mp ⟨r, hr⟩
    dsimp only
    unfold getSelectedDevice
    cases hs : st.selected with
    | cpu =>
      simp only [reduceCtorEq, false_and, if_false, false_imp_iff, iff_true]
      split <;> exact ⟨_, rfl⟩
    | cuda =>
      have h2 := h2 hs
      simp only [true_and, true_imp_iff]
      cases iu with
      | false =>
        simp only [Bool.false_eq_true, if_false, false_imp_iff, and_true]
        refine iff_of_true ?_ h2
        split <;> exact ⟨_, rfl⟩
      | true =>
        simp only [if_true, true_imp_iff]
        cases hp : e.props di with
        | none => simp
        | some tar =>
          obtain ⟨t, a, rr⟩ := tar
          simp only [Option.isSome_some, and_true]
          refine iff_of_true ?_ h2
          split <;> exact ⟨_, rfl⟩

/-- Specification: the bytes of the tracked tensors in main memory -/
noncomputable def Spec.ramBytes (ts : List TensorInfo) : ℕ :=
  open scoped Classical in ((ts.filter fun t => decide (Spec.InRam t)).map fun t => Spec.memory t).sum

theorem cpu_filter {ts : List TensorInfo} (h : ∀ t ∈ ts, Spec.InRam t ∨ Spec.OnGpu t) :
    ((ts.filter fun t => t.onCpu).map fun t => t.bytes).sum = Spec.ramBytes ts := by
  unfold Spec.ramBytes
  congr 2
  apply List.filter_congr
  intro t ht
  rw [Bool.eq_iff_iff, onCpu_iff (h t ht)]; simp

theorem mem_wanted {ic iu : Bool} {objs : List GcObj} (hd : Spec.TorchDevices objs) {t : TensorInfo}
    (h : t ∈ Spec.wanted ic iu objs) : Spec.InRam t ∨ Spec.OnGpu t := by
  unfold Spec.wanted at h
  rw [List.mem_filter, List.mem_filterMap] at h
  obtain ⟨⟨o, ho, hx⟩, _⟩ := h
  cases o with
  | other => simp at hx
  | broken => simp at hx
  | tensor t' =>
    simp only [Option.some.injEq] at hx
    subst hx
    exact hd _ ho

/-- C97, the exact extent of the line "CPU tensors: … total": it is the total of all tracked tensors in main memory exactly if
the tensors left out by the limit are empty or on a GPU. -/
theorem C97_cpu_total_iff {st : DeviceState} {e : MemEnv} {di : ℕ} {iu : Bool} {limit : Option ℤ} {objs : List GcObj}
    (hd : Spec.TorchDevices objs) {r : MemReport} {p : MemPrinted}
    (h : printMemoryReport st e di true iu limit objs = .ok (r, p)) {bytes count : ℕ} {listed : List TensorInfo}
    (hp : p.body = some (some (bytes, count), listed)) :
    bytes ≤ Spec.ramBytes (Spec.wanted true iu objs) ∧
    ∃ rest, (listed ++ rest).Perm (Spec.wanted true iu objs) ∧
      (bytes = Spec.ramBytes (Spec.wanted true iu objs) ↔ ∀ t ∈ rest, Spec.InRam t → Spec.memory t = 0) := by
  obtain ⟨_, hb⟩ := print_ok h
  rw [collect_wanted true iu objs hd] at hb
  have hl := (C97_lists_the_largest hd h).2 _ _ hp
  obtain ⟨rest, hperm, -⟩ := hl.1
  have hbytes : bytes = Spec.ramBytes listed := by
    cases hw : Spec.wanted true iu objs with
    | nil => rw [hw, hp] at hb; simp at hb
    | cons t ts =>
      rw [hw, hp] at hb
      simp only [if_true, Option.some.injEq, Prod.mk.injEq] at hb
      obtain ⟨⟨h1, _⟩, h2⟩ := hb
      rw [h1, ← h2]
      apply cpu_filter
      intro t' ht'
      exact mem_wanted hd (hperm.subset (List.mem_append_left _ ht'))
  have htot : Spec.ramBytes (Spec.wanted true iu objs) = Spec.ramBytes listed + Spec.ramBytes rest := by
    unfold Spec.ramBytes
    rw [← ((hperm.filter _).map _).sum_eq, List.filter_append, List.map_append, List.sum_append]
  refine ⟨by omega, rest, hperm, ?_⟩
  have : Spec.ramBytes rest = 0 ↔ ∀ t ∈ rest, Spec.InRam t → Spec.memory t = 0 := by
    unfold Spec.ramBytes
    rw [List.sum_eq_zero_iff]
    simp only [List.mem_map, List.mem_filter, decide_eq_true_eq]
    constructor
    · intro h t ht hr; exact h _ ⟨t, ⟨ht, hr⟩, rfl⟩
    · rintro h _ ⟨t, ⟨ht, hr⟩, rfl⟩; exact h t ht hr
  rw [← this]; omega

/-- C97, the heading: with CUDA selected and included it shows the number of the GPU asked for and its total, allocated and reserved
memory as the driver reports them, what is neither, and the allocated part of the total in percent; otherwise no GPU is shown. -/
theorem C97_gpu_heading {st : DeviceState} {e : MemEnv} {di : ℕ} {ic iu : Bool} {limit : Option ℤ} {objs : List GcObj}
    {r : MemReport} {p : MemPrinted} (h : printMemoryReport st e di ic iu limit objs = .ok (r, p)) :
    (p.gpu = none ↔ ¬ (getSelectedDevice st = .cuda ∧ iu = true)) ∧
    ∀ i total allocated reserved free percent, p.gpu = some (i, total, allocated, reserved, free, percent) →
      i = di ∧ ∃ t a v : ℕ, e.props di = some (t, a, v) ∧ total * 1024 ^ 3 = t ∧ allocated * 1024 ^ 3 = a ∧ reserved * 1024 ^ 3 = v ∧
        free = total - reserved ∧ (t ≠ 0 → percent / 100 * t = a) ∧ (t = 0 → percent = 0) := by
  have hg : (if getSelectedDevice st = .cuda ∧ iu = true then
        (match e.props di with
        | some (t, a, r) =>
          .ok (some (di, gb t, gb a, gb r, gb t - gb r, if gb t ≠ 0 then gb a / gb t * 100 else 0))
        | none => .error .assertion)
      else .ok none : Except PyErr _) = .ok p.gpu := by
    unfold printMemoryReport at h
    cases hr : returnDeviceMemory st e with
    | error err => rw [hr] at h; simp at h
    | ok r' =>
      rw [hr] at h
      dsimp only at h
      split at h
      · simp at h
      · rename_i g hg
        refine Eq.trans hg ?_
        cases hc : collectTensors ic iu objs with
        | nil =>
          rw [hc] at h
          simp only [Except.ok.injEq, Prod.mk.injEq] at h
          rw [← h.2]
        | cons t ts =>
          rw [hc] at h
          simp only [Except.ok.injEq, Prod.mk.injEq] at h
          rw [← h.2]
  by_cases hc : getSelectedDevice st = .cuda ∧ iu = true
  · rw [if_pos hc] at hg
    cases hp : e.props di with
    | none => rw [hp] at hg; simp at hg
    | some x =>
      obtain ⟨t, a, v⟩ := x
      rw [hp] at hg
      simp only [Except.ok.injEq] at hg
      rw [← hg]
      refine ⟨by simp [hc], ?_⟩
      intro i total allocated reserved free percent hs
      simp only [Option.some.injEq, Prod.mk.injEq] at hs
      obtain ⟨rfl, rfl, rfl, rfl, rfl, rfl⟩ := hs
      refine ⟨rfl, t, a, v, rfl, gb_bytes t, gb_bytes a, gb_bytes v, rfl, ?_, ?_⟩
      · intro ht
        have h0 : gb t ≠ 0 := by unfold gb; positivity
        rw [if_pos h0]
        have : (t : ℝ) = gb t * 1024 ^ 3 := (gb_bytes t).symm
        rw [this, ← gb_bytes a]
        field_simp
      · intro ht
        rw [if_neg]
        simp [gb, ht]
  · rw [if_neg hc] at hg
    have := (Except.ok.inj hg).symm
    rw [this]
    refine ⟨by simp [hc], ?_⟩
    intro _ _ _ _ _ _ hs
    cases hs

/-- the heading of a GPU of 16 GB of which 4 GB are allocated and 8 GB reserved: 25 percent -/
example : ∃ (st : DeviceState) (e : MemEnv) (r : MemReport) (p : MemPrinted),
    printMemoryReport st e 0 true true none [] = .ok (r, p) ∧ p.gpu = some (0, 16, 4, 8, 8, 25) := by
  obtain ⟨st, hst⟩ : ∃ st : DeviceState, getSelectedDevice st = .cuda := ⟨⟨.cuda, .cuda⟩, rfl⟩
  let e : MemEnv := ⟨none, true, some 0, fun _ => some (16 * 1024 ^ 3, 4 * 1024 ^ 3, 8 * 1024 ^ 3)⟩
  have h0 : ∃ r p, printMemoryReport st e 0 true true none [] = .ok (r, p) := by
    unfold printMemoryReport returnDeviceMemory
    simp [hst, e, collectTensors]
  obtain ⟨r, p, h⟩ := h0
  refine ⟨st, e, r, p, h, ?_⟩
  obtain ⟨h1, h2⟩ := C97_gpu_heading h
  cases hp : p.gpu with
  | none => exact absurd ⟨hst, rfl⟩ (h1.1 hp)
  | some x =>
    obtain ⟨i, total, allocated, reserved, free, percent⟩ := x
    obtain ⟨rfl, t, a, v, ht, h3, h4, h5, h6, h7, -⟩ := h2 _ _ _ _ _ _ hp
    simp only [e, Option.some.injEq, Prod.mk.injEq] at ht
    obtain ⟨rfl, rfl, rfl⟩ := ht
    have h8 := h7 (by norm_num)
    push_cast at h3 h4 h5 h8
    have e1 : total = 16 := by linarith
    have e2 : allocated = 4 := by linarith
    have e3 : reserved = 8 := by linarith
    have e4 : percent = 25 := by linarith
    subst e1 e2 e3 e4
    rw [h6]; norm_num

/-- a tensor of one byte in main memory -/
def byteTensor : TensorInfo := ⟨"t".toList, "cpu".toList, 1, 1⟩
/-- a machine without psutil and GPU -/
def bareMachine : MemEnv := ⟨none, false, none, fun _ => none⟩

/-- six one-byte tensors and something else are tracked -/
def sixBytes : List GcObj := GcObj.other :: List.replicate 6 (GcObj.tensor byteTensor)

theorem sixBytes_devices : Spec.TorchDevices sixBytes := by
  intro t ht
  simp [sixBytes] at ht
  subst ht
  exact .inl rfl

theorem sixBytes_listed : listedTensors (some 5) (List.replicate 6 byteTensor) = List.replicate 5 byteTensor := by
  rw [List.eq_replicate_iff]
  obtain ⟨rest, hp, -, -, hl, -⟩ := listed_largest (some 5) (List.replicate 6 byteTensor)
  refine ⟨by rw [hl 5 (by norm_num) rfl]; simp, ?_⟩
  intro b hb
  exact List.eq_of_mem_replicate (hp.subset (List.mem_append_left _ hb))

theorem sixBytes_report : printMemoryReport DeviceState.start bareMachine 0 true true (some 5) sixBytes =
    .ok (⟨"cpu".toList, 0, 0⟩, ⟨none, some (some (5, 5), List.replicate 5 byteTensor)⟩) := by
  have hc : collectTensors true true sixBytes = List.replicate 6 byteTensor := by decide
  have hc' : (List.replicate 6 byteTensor) = byteTensor :: List.replicate 5 byteTensor := rfl
  unfold printMemoryReport
  rw [hc, hc']
  simp only [returnDeviceMemory, getSelectedDevice, DeviceState.start, bareMachine, reduceCtorEq, false_and, if_false, if_true]
  rw [← hc', sixBytes_listed]
  have : (List.replicate 5 byteTensor).filter (fun t => t.onCpu) = List.replicate 5 byteTensor := by decide
  rw [this]
  rfl

example : Spec.TorchDevices sixBytes ∧ ∃ r p, printMemoryReport DeviceState.start bareMachine 0 true true (some 5) sixBytes = .ok (r, p) ∧
    Spec.Largest (some 5) (Spec.wanted true true sixBytes) (List.replicate 5 byteTensor) :=
  ⟨sixBytes_devices, _, _, sixBytes_report, ((C97_lists_the_largest sixBytes_devices sixBytes_report).2 _ _ rfl).1⟩

/-- C97: with the default limit the printed "total" of the CPU tensors leaves out every tensor below the fifth: six tensors of one
byte are reported as five bytes. -/
theorem C97_cpu_total_fails : ∃ (objs : List GcObj) (r : MemReport) (p : MemPrinted) (bytes count : ℕ) (listed : List TensorInfo),
    Spec.TorchDevices objs ∧
    printMemoryReport DeviceState.start bareMachine 0 true true (some 5) objs = .ok (r, p) ∧
    p.body = some (some (bytes, count), listed) ∧
    Spec.ramBytes (Spec.wanted true true objs) = 6 ∧ bytes = 5 := by
  refine ⟨sixBytes, _, _, 5, 5, _, sixBytes_devices, sixBytes_report, rfl, ?_, rfl⟩
  rw [← collect_wanted true true sixBytes sixBytes_devices]
  have hc : collectTensors true true sixBytes = List.replicate 6 byteTensor := by decide
  rw [hc, ← cpu_filter (by intro t ht; rw [List.eq_of_mem_replicate ht]; exact .inl rfl)]
  decide

end XRD
