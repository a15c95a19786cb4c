import Verif.Model.Alias

/-! Property C114: the conversion helpers `ensure_torch` and `ensure_numpy` keep values, and what they share with the caller. -/

namespace XRD.Spec
open XRD
/-- the argument, if it is an array, is stored in memory in use -/
def Stored (h : Heap) : Arg → Prop
  | .numpy l _ => l < h.next
  | .tensor l _ _ => l < h.next
  | .python _ => True
/-- the argument already is a double precision array (or tensor) in the memory of the default device; `cpu`: that is the CPU -/
def InPlace (cpu : Bool) : Arg → Prop
  | .numpy _ f64 => f64 = true ∧ cpu = true
  | .tensor _ f64 dev => f64 = true ∧ dev = true
  | .python _ => False
/-- the array with address `l` is the argument -/
def IsAt (l : ℕ) : Arg → Prop
  | .numpy l' _ => l' = l
  | .tensor l' _ _ => l' = l
  | .python _ => False
end XRD.Spec

namespace XRD
open Spec

/-- **C114** `ensure_numpy` returns an array with the values of its argument, whatever kind of argument it is, leaves every existing array
as it was, and always a new one: whatever is later written into the result, no array that existed before changes. -/
theorem C114_ensure_numpy (h : Heap) (a : Arg) :
    (a.ensureNumpy h).2.cell (a.ensureNumpy h).1 = a.value h ∧ (∀ l < h.next, (a.ensureNumpy h).2.cell l = h.cell l) ∧
    (a.ensureNumpy h).1 < (a.ensureNumpy h).2.next ∧
    ∀ c, ∀ l < h.next, ((a.ensureNumpy h).2.write (a.ensureNumpy h).1 c).cell l = h.cell l := by
  refine ⟨by simp [Arg.ensureNumpy, Heap.alloc], fun l hl => ?_, by simp [Arg.ensureNumpy, Heap.alloc], fun c l hl => ?_⟩
  · simp [Arg.ensureNumpy, Heap.alloc, Function.update_of_ne hl.ne]
  · simp [Arg.ensureNumpy, Heap.alloc, Heap.write, Function.update_of_ne hl.ne]

/-- **C114** `ensure_torch` returns a tensor with the values of its argument and leaves every existing array as it was.  Writing into the
result changes an array that existed before exactly if the argument already was a double precision array in the memory of the default
device, and then that array is the argument itself. -/
theorem C114_ensure_torch (cpu : Bool) (h : Heap) (a : Arg) (ha : Stored h a) :
    (a.ensureTorch cpu h).2.cell (a.ensureTorch cpu h).1 = a.value h ∧ (∀ l < h.next, (a.ensureTorch cpu h).2.cell l = h.cell l) ∧
    (a.ensureTorch cpu h).1 < (a.ensureTorch cpu h).2.next ∧
    ∀ c, c ≠ a.value h → ∀ l < h.next, (((a.ensureTorch cpu h).2.write (a.ensureTorch cpu h).1 c).cell l ≠ h.cell l ↔ InPlace cpu a ∧ IsAt l a) := by
  have fresh : ∀ v : Cell, (h.alloc v).2.cell (h.alloc v).1 = v ∧ (∀ l < h.next, (h.alloc v).2.cell l = h.cell l) ∧
      (h.alloc v).1 < (h.alloc v).2.next ∧ ∀ c, ∀ l < h.next, ((h.alloc v).2.write (h.alloc v).1 c).cell l = h.cell l := by
    intro v
    refine ⟨by simp [Heap.alloc], fun l hl => ?_, by simp [Heap.alloc], fun c l hl => ?_⟩
    · simp [Heap.alloc, Function.update_of_ne hl.ne]
    · simp [Heap.alloc, Heap.write, Function.update_of_ne hl.ne]
  have same : ∀ l0 < h.next, ∀ c, c ≠ h.cell l0 → ∀ l, ((h.write l0 c).cell l ≠ h.cell l ↔ l0 = l) := by
    intro l0 _ c hc l
    by_cases e : l = l0
    · subst e; simp [Heap.write, hc]
    · simp [Heap.write, Function.update_of_ne e, Ne.symm e]
  cases a with
  | python v =>
    obtain ⟨f1, f2, f3, f4⟩ := fresh v
    exact ⟨f1, f2, f3, fun c _ l hl => by simp [Arg.ensureTorch, InPlace, f4 c l hl]⟩
  | numpy l0 f64 =>
    by_cases hs : (f64 && cpu) = true
    · have hs' : f64 = true ∧ cpu = true := by simpa using hs
      obtain ⟨rfl, rfl⟩ := hs'
      simp only [Arg.ensureTorch, Bool.and_self, if_true, Arg.value, InPlace, IsAt, and_self, true_and]
      exact ⟨fun _ _ => trivial, ha, fun c hc l _ => same l0 ha c hc l⟩
    · obtain ⟨f1, f2, f3, f4⟩ := fresh (h.cell l0)
      have hs' : ¬ (f64 = true ∧ cpu = true) := by simpa using hs
      simp only [Arg.ensureTorch, if_neg hs, Arg.value, InPlace, IsAt, hs', false_and, iff_false]
      exact ⟨f1, f2, f3, fun c _ l hl => by simpa using f4 c l hl⟩
  | tensor l0 f64 dev =>
    by_cases hs : (f64 && dev) = true
    · have hs' : f64 = true ∧ dev = true := by simpa using hs
      obtain ⟨rfl, rfl⟩ := hs'
      simp only [Arg.ensureTorch, Bool.and_self, if_true, Arg.value, InPlace, IsAt, and_self, true_and]
      exact ⟨fun _ _ => trivial, ha, fun c hc l _ => same l0 ha c hc l⟩
    · obtain ⟨f1, f2, f3, f4⟩ := fresh (h.cell l0)
      have hs' : ¬ (f64 = true ∧ dev = true) := by simpa using hs
      simp only [Arg.ensureTorch, if_neg hs, Arg.value, InPlace, IsAt, hs', false_and, iff_false]
      exact ⟨f1, f2, f3, fun c _ l hl => by simpa using f4 c l hl⟩

/-- C114: `ensure_numpy(ensure_torch(a))` is a new array with the values of `a`; and converting a tensor that `ensure_torch` returned once
more gives the very same tensor. -/
theorem C114_round_trip (cpu : Bool) (h : Heap) (a : Arg) (ha : Stored h a) :
    (∀ t h1, a.ensureTorch cpu h = (t, h1) → ∀ n h2, (Arg.tensor t true true).ensureNumpy h1 = (n, h2) →
      h2.cell n = a.value h ∧ h.next ≤ n ∧ ∀ l < h.next, h2.cell l = h.cell l) ∧
    ∀ t h1, a.ensureTorch cpu h = (t, h1) → (Arg.tensor t true true).ensureTorch cpu h1 = (t, h1) := by
  constructor
  · intro t h1 ht n h2 hn
    obtain ⟨e1, e2, e3, -⟩ := C114_ensure_torch cpu h a ha
    rw [ht] at e1 e2 e3
    obtain ⟨g1, g2, -, -⟩ := C114_ensure_numpy h1 (.tensor t true true)
    rw [hn] at g1 g2
    have hle : h.next ≤ h1.next := by
      have : ∀ v : Cell, h.next ≤ (h.alloc v).2.next := fun v => by simp [Heap.alloc]
      cases a with
      | python v => simp only [Arg.ensureTorch] at ht; rw [← (Prod.mk.inj ht).2]; exact this v
      | numpy l f =>
        simp only [Arg.ensureTorch] at ht
        split_ifs at ht
        · rw [(Prod.mk.inj ht).2]
        · rw [← (Prod.mk.inj ht).2]; exact this _
      | tensor l f d =>
        simp only [Arg.ensureTorch] at ht
        split_ifs at ht
        · rw [(Prod.mk.inj ht).2]
        · rw [← (Prod.mk.inj ht).2]; exact this _
    have hn' : n = h1.next := by rw [← show ((Arg.tensor t true true).ensureNumpy h1).1 = n by rw [hn]]; rfl
    refine ⟨g1.trans e1, by omega, fun l hl => ?_⟩
    rw [g2 l (by omega), e2 l hl]
  · intro t h1 _; rfl

/-- C114 is not vacuous: a single precision array, a double precision array and a tensor, on the CPU, and a heap of three arrays. -/
example : let h : Heap := ⟨3, fun l => .points [⟨l, 0, 0⟩]⟩
    Stored h (.numpy 0 false) ∧ ¬ InPlace true (.numpy 0 false) ∧ Stored h (.numpy 1 true) ∧ InPlace true (.numpy 1 true) ∧
    Stored h (.tensor 2 true true) ∧ InPlace true (.tensor 2 true true) ∧ ¬ InPlace false (.numpy 1 true) := by
  simp [Stored, InPlace]

end XRD
