import Verif.Model.Device

/-! C46: device selection. -/

namespace XRD

/-- Specification: `s` is the word `w` up to letter case and surrounding white space. -/
def Spec.IsWord (w : String) (s : List Char) : Prop :=
  ∃ a m b : List Char, s = a ++ m ++ b ∧ (∀ c ∈ a, pySpace c = true) ∧ (∀ c ∈ b, pySpace c = true) ∧ m.map Char.toLower = w.toList

/-- Specification: names the documentation allows -/
def Spec.ValidDevice : Option (List Char) → Prop
  | none => True
  | some s => Spec.IsWord "cpu" s ∨ Spec.IsWord "gpu" s ∨ Spec.IsWord "cuda" s ∨ Spec.IsWord "auto" s

/-- Specification: the last value returned by a successful call, starting from `d` -/
def Spec.lastOk (d : Dev) : List (Except PyErr Dev) → Dev
  | [] => d
  | .ok e :: rs => Spec.lastOk e rs
  | .error _ :: rs => Spec.lastOk d rs

theorem pySpace_toLower (c : Char) : pySpace c.toLower = pySpace c := by
  unfold Char.toLower
  split_ifs with h
  · have h1 : (65 : ℕ) ≤ c.val.toNat := by have := h.1; rw [ge_iff_le, UInt32.le_iff_toNat_le] at this; exact this
    have h2 : c.val.toNat ≤ 90 := by have := h.2; rw [UInt32.le_iff_toNat_le] at this; exact this
    have e : (c.val + ('a'.val - 'A'.val)).toNat = c.val.toNat + 32 := by
      rw [UInt32.toNat_add]
      have : ('a'.val - 'A'.val).toNat = 32 := by decide
      rw [this]; omega
    unfold pySpace Char.toNat
    simp only [e]
    have g1 : c.val.toNat = c.toNat := rfl
    rw [Bool.eq_iff_iff]
    simp
    omega
  · rfl

theorem dropWhile_append_all {α : Type} (p : α → Bool) (a b : List α) (h : ∀ c ∈ a, p c = true) :
    (a ++ b).dropWhile p = b.dropWhile p := by
  induction a with
  | nil => rfl
  | cons x a ih =>
    simp only [List.cons_append, List.dropWhile_cons, h x List.mem_cons_self, if_true]
    exact ih fun c hc => h c (List.mem_cons_of_mem _ hc)

theorem dropWhile_split {α : Type} (p : α → Bool) (s : List α) : ∃ a, s = a ++ s.dropWhile p ∧ ∀ c ∈ a, p c = true := by
  refine ⟨s.takeWhile p, (List.takeWhile_append_dropWhile).symm, ?_⟩
  induction s with
  | nil => intro c hc; simp at hc
  | cons x s ih =>
    intro c hc
    rw [List.takeWhile_cons] at hc
    split_ifs at hc with h
    · rcases List.mem_cons.mp hc with rfl | hc
      · exact h
      · exact ih c hc
    · simp at hc

theorem dropWhile_none {α : Type} (p : α → Bool) (s : List α) (h : ∀ c ∈ s, p c = false) : s.dropWhile p = s := by
  cases s with
  | nil => rfl
  | cons x s => simp [List.dropWhile_cons, h x List.mem_cons_self]

/-- stripping finds exactly the words without inner white space -/
theorem pyStrip_eq_iff (s m : List Char) (hm : ∀ c ∈ m, pySpace c = false) :
    pyStrip s = m ↔ ∃ a b, s = a ++ m ++ b ∧ (∀ c ∈ a, pySpace c = true) ∧ (∀ c ∈ b, pySpace c = true) := by
  constructor
  · rintro rfl
    obtain ⟨a, ha, ha'⟩ := dropWhile_split pySpace s
    obtain ⟨b, hb, hb'⟩ := dropWhile_split pySpace (s.dropWhile pySpace).reverse
    refine ⟨a, b.reverse, ?_, ha', fun c hc => hb' c (List.mem_reverse.mp hc)⟩
    have : s.dropWhile pySpace = pyStrip s ++ b.reverse := by
      have := congrArg List.reverse hb
      rw [List.reverse_reverse, List.reverse_append] at this
      exact this
    rw [List.append_assoc, ← this]
    exact ha
  · rintro ⟨a, b, rfl, ha, hb⟩
    unfold pyStrip
    rw [List.append_assoc, dropWhile_append_all _ _ _ ha]
    by_cases hmn : m = []
    · subst hmn
      have : (([] : List Char) ++ b).dropWhile pySpace = [] := by
        rw [List.nil_append]
        rw [show b = b ++ [] by simp, dropWhile_append_all _ _ _ hb]; rfl
      rw [this]; rfl
    · have e : (m ++ b).dropWhile pySpace = m ++ b := by
        cases m with
        | nil => exact absurd rfl hmn
        | cons x m => simp [List.dropWhile_cons, hm x List.mem_cons_self]
      rw [e, List.reverse_append, dropWhile_append_all _ _ _ (fun c hc => hb c (List.mem_reverse.mp hc)),
        dropWhile_none _ _ (fun c hc => hm c (List.mem_reverse.mp hc)), List.reverse_reverse]

theorem isWord_iff (w : String) (hw : ∀ c ∈ w.toList, pySpace c = false) (s : List Char) :
    Spec.IsWord w s ↔ pyStrip (pyLower s) = w.toList := by
  rw [pyStrip_eq_iff _ _ hw]
  constructor
  · rintro ⟨a, m, b, rfl, ha, hb, hm⟩
    refine ⟨pyLower a, pyLower b, ?_, ?_, ?_⟩
    · simp only [pyLower, List.map_append, hm]
    · intro c hc; obtain ⟨c', h', rfl⟩ := List.mem_map.mp hc; rw [pySpace_toLower]; exact ha _ h'
    · intro c hc; obtain ⟨c', h', rfl⟩ := List.mem_map.mp hc; rw [pySpace_toLower]; exact hb _ h'
  · rintro ⟨a, b, h, ha, hb⟩
    unfold pyLower at h
    obtain ⟨am, b', rfl, h1, h2⟩ := List.map_eq_append_iff.mp h
    obtain ⟨a', m', rfl, h3, h4⟩ := List.map_eq_append_iff.mp h1
    refine ⟨a', m', b', rfl, ?_, ?_, h4⟩
    · intro c hc; rw [← pySpace_toLower]; exact ha _ (h3 ▸ List.mem_map_of_mem hc)
    · intro c hc; rw [← pySpace_toLower]; exact hb _ (h2 ▸ List.mem_map_of_mem hc)

theorem wantGpu_error (c : DeviceCall) (e : PyErr) (h : c.wantGpu = .error e) : e = .valueError := by
  unfold DeviceCall.wantGpu at h
  split at h
  · cases h
  · split_ifs at h <;> first | (injection h with h; exact h.symm) | cases h

/-- C46: a call succeeds exactly for the documented names (any case, surrounding white space); any other name raises
`ValueError` and leaves the selected device and the torch default alone. -/
theorem C46_validated (c : DeviceCall) (st : DeviceState) :
    (Spec.ValidDevice c.arg → ∃ d, (configureDevice c st).1 = .ok d) ∧
    (¬ Spec.ValidDevice c.arg → configureDevice c st = (.error .valueError, st)) := by
  have key : Spec.ValidDevice c.arg ↔ ∃ w, c.wantGpu = .ok w := by
    unfold Spec.ValidDevice DeviceCall.wantGpu
    cases c.arg with
    | none => simp
    | some s =>
      simp only [Option.map_some, isWord_iff "cpu" (by decide), isWord_iff "gpu" (by decide), isWord_iff "cuda" (by decide),
        isWord_iff "auto" (by decide)]
      constructor
      · rintro (h | h | h | h) <;> rw [h] <;> exact ⟨_, rfl⟩
      · rintro ⟨w, h⟩
        split_ifs at h with h1 h2 h3
        · exact .inr (.inr (.inr h1))
        · rcases h2 with h2 | h2
          · exact .inr (.inl h2)
          · exact .inr (.inr (.inl h2))
        · exact .inl h3
  unfold configureDevice
  constructor
  · intro h
    obtain ⟨w, hw⟩ := key.mp h
    rw [hw]; exact ⟨_, rfl⟩
  · intro h
    cases hw : c.wantGpu with
    | ok w => exact absurd (key.mpr ⟨w, hw⟩) h
    | error e => rw [wantGpu_error c e hw]

/-- C46: which device a successful call returns: `cuda` exactly when CUDA is available and the name asks for it (explicitly, or
automatically with CUDA seen available); never `cuda` without CUDA. -/
theorem C46_value (c : DeviceCall) (st : DeviceState) (d : Dev) (h : (configureDevice c st).1 = .ok d) :
    (d = .cuda ↔ c.avail = true ∧ ((∃ s, c.arg = some s ∧ (Spec.IsWord "gpu" s ∨ Spec.IsWord "cuda" s)) ∨
      ((c.arg = none ∨ ∃ s, c.arg = some s ∧ Spec.IsWord "auto" s) ∧ c.availAuto = true))) := by
  obtain ⟨arg, au, av⟩ := c
  unfold configureDevice DeviceCall.wantGpu at h
  cases arg with
  | none =>
    simp only [Option.map_none] at h
    injection h with h
    subst h
    cases au <;> cases av <;> simp
  | some s =>
    simp only [Option.map_some] at h
    simp only [Option.some.injEq, exists_eq_left', isWord_iff "gpu" (by decide), isWord_iff "cuda" (by decide),
        isWord_iff "auto" (by decide), reduceCtorEq, false_or]
    generalize pyStrip (pyLower s) = w at h ⊢
    split_ifs at h with h1 h2 h3
    · subst h1
      injection h with h
      subst h
      have e1 : ¬ "auto".toList = "gpu".toList := by decide
      have e2 : ¬ "auto".toList = "cuda".toList := by decide
      cases au <;> cases av <;> simp
    · injection h with h
      subst h
      cases au <;> cases av <;> simp at h2 ⊢ <;> tauto
    · subst h3
      injection h with h
      subst h
      have e1 : ¬ "cpu".toList = "gpu".toList := by decide
      have e2 : ¬ "cpu".toList = "cuda".toList := by decide
      have e3 : ¬ "cpu".toList = "auto".toList := by decide
      cases au <;> cases av <;> simp

/-- C46: for every history of calls from import, whatever CUDA's availability does meanwhile, the selected device is the torch
default and is the value returned by the last successful call (`cpu` before any); and it is `cuda` only if CUDA was available
at some call. -/
theorem C46_history (h : List DeviceCall) :
    let r := runDevice h .start
    getSelectedDevice r.2 = r.2.torchDefault ∧ getSelectedDevice r.2 = Spec.lastOk .cpu r.1 ∧
    (getSelectedDevice r.2 = .cuda → ∃ c ∈ h, c.avail = true) := by
  have gen : ∀ (h : List DeviceCall) (st : DeviceState), st.selected = st.torchDefault →
      (runDevice h st).2.selected = (runDevice h st).2.torchDefault ∧
      (runDevice h st).2.selected = Spec.lastOk st.selected (runDevice h st).1 ∧
      ((runDevice h st).2.selected = .cuda → st.selected = .cuda ∨ ∃ c ∈ h, c.avail = true) := by
    intro h
    induction h with
    | nil => intro st hst; exact ⟨hst, rfl, fun h => .inl h⟩
    | cons c h ih =>
      intro st hst
      simp only [runDevice]
      unfold configureDevice
      cases hw : c.wantGpu with
      | error e =>
        obtain ⟨h1, h2, h3⟩ := ih st hst
        refine ⟨h1, h2, fun hc => ?_⟩
        rcases h3 hc with h | ⟨c', hc', h⟩
        · exact .inl h
        · exact .inr ⟨c', List.mem_cons_of_mem _ hc', h⟩
      | ok w =>
        obtain ⟨h1, h2, h3⟩ := ih ⟨if w ∧ c.avail then .cuda else .cpu, if w ∧ c.avail then .cuda else .cpu⟩ rfl
        refine ⟨h1, h2, fun hc => ?_⟩
        rcases h3 hc with h | ⟨c', hc', h⟩
        · right
          refine ⟨c, List.mem_cons_self, ?_⟩
          cases ha : c.avail with
          | true => rfl
          | false => rw [ha] at h; simp at h
        · exact .inr ⟨c', List.mem_cons_of_mem _ hc', h⟩
  obtain ⟨h1, h2, h3⟩ := gen h .start rfl
  refine ⟨h1, h2, fun hc => ?_⟩
  rcases h3 hc with h | h
  · cases h
  · exact h

/-- a valid name in an unusual spelling, and an invalid one -/
example : Spec.ValidDevice (some " CuDa\n".toList) ∧ ¬ Spec.ValidDevice (some "cuda:0".toList) := by
  constructor
  · right; right; left
    rw [isWord_iff "cuda" (by decide)]; decide
  · show ¬ (Spec.IsWord "cpu" _ ∨ Spec.IsWord "gpu" _ ∨ Spec.IsWord "cuda" _ ∨ Spec.IsWord "auto" _)
    rw [isWord_iff "cuda" (by decide), isWord_iff "cpu" (by decide), isWord_iff "gpu" (by decide), isWord_iff "auto" (by decide)]
    decide

/-- a history in which a failing call leaves the earlier choice in place -/
example : (runDevice [⟨some "gpu".toList, true, true⟩, ⟨some "tpu".toList, true, true⟩] .start).2.selected = .cuda := by decide

end XRD
