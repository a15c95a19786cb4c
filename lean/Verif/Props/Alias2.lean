import Verif.Props.Alias
import Verif.Props.ImgScene

/-! C75: motions and detectors; construction equals construction from values. -/

namespace XRD
open V3 M3 Spec
open scoped Classical

theorem ensured_ref {cpu : Bool} {h : Heap} {n0 : ℕ} {a : Arg} (ha : ArgIn a n0) (hn : n0 ≤ h.next) {l : ℕ} (hl : l < n0)
    (hk : ¬ KeptBy cpu a l) : (a.ensureTorch cpu h).1 ≠ l := by
  have H := ensure_held (cpu := cpu) ha hn
  rw [keptBy_iff] at hk
  rcases H.src with h' | h'
  · intro hc; rw [hc] at h'; exact hk h'.1
  · omega

/-- what constructing a motion does to the memory -/
theorem MotionObj.new_ok {cpu : Bool} {h : Heap} {axis angle translation origin : Arg} {m : MotionObj} {h1 : Heap}
    (ha : ArgIn axis h.next) (hw : ArgIn angle h.next) (ht : ArgIn translation h.next) (ho : ArgIn origin h.next)
    (hn : MotionObj.new cpu h axis angle translation origin = .ok (m, h1)) :
    Motion.new (axis.value h).vec (angle.value h).real (translation.value h).vec (origin.value h).vec =
        .ok (m.view h1) ∧ Heap.Ext h h1 ∧ h1.cell m.axis = axis.value h ∧ m.rotAxis = (axis.value h).vec ∧
      (m.axis < h1.next ∧ m.angle < h1.next ∧ m.translation < h1.next ∧ m.origin < h1.next) ∧
      (∀ l < h.next, ¬ KeptBy cpu axis l → m.axis ≠ l) ∧ (∀ l < h.next, ¬ KeptBy cpu angle l → m.angle ≠ l) ∧
      (∀ l < h.next, ¬ KeptBy cpu translation l → m.translation ≠ l) ∧
      (∀ l < h.next, ¬ KeptBy cpu origin l → m.origin ≠ l) ∧
      (∀ l, KeptBy cpu axis l → m.axis = l) ∧ (∀ l, KeptBy cpu translation l → m.translation = l) := by
  unfold MotionObj.new at hn
  have E1 := axis.ensured cpu h ha.to
  have F1 := fun l (hl : l < h.next) hk => ensured_ref (cpu := cpu) ha (le_refl _) hl hk
  generalize axis.ensureTorch cpu h = r at E1 F1 hn
  obtain ⟨r1, g1⟩ := r
  dsimp only at E1 F1 hn
  have E2 := angle.ensured cpu g1 (hw.to.mono E1.ext.next)
  have F2 := fun l (hl : l < h.next) hk => ensured_ref (cpu := cpu) hw E1.ext.next hl hk
  have v2 := E2.value
  rw [Arg.value_ext hw.to E1.ext] at v2
  generalize angle.ensureTorch cpu g1 = r at E2 F2 v2 hn
  obtain ⟨r2, g2⟩ := r
  dsimp only at E2 F2 v2 hn
  have x2 := E1.ext.trans E2.ext
  have E3 := translation.ensured cpu g2 (ht.to.mono x2.next)
  have F3 := fun l (hl : l < h.next) hk => ensured_ref (cpu := cpu) ht x2.next hl hk
  have v3 := E3.value
  rw [Arg.value_ext ht.to x2] at v3
  generalize translation.ensureTorch cpu g2 = r at E3 F3 v3 hn
  obtain ⟨r3, g3⟩ := r
  dsimp only at E3 F3 v3 hn
  have x3 := x2.trans E3.ext
  have E4 := origin.ensured cpu g3 (ho.to.mono x3.next)
  have F4 := fun l (hl : l < h.next) hk => ensured_ref (cpu := cpu) ho x3.next hl hk
  have v4 := E4.value
  rw [Arg.value_ext ho.to x3] at v4
  generalize origin.ensureTorch cpu g3 = r at E4 F4 v4 hn
  obtain ⟨r4, g4⟩ := r
  dsimp only at E4 F4 v4 hn
  split_ifs at hn with hwa hax
  simp only [Except.ok.injEq, Prod.mk.injEq] at hn
  obtain ⟨rfl, rfl⟩ := hn
  have x14 := E2.ext.trans (E3.ext.trans E4.ext)
  have x24 := E3.ext.trans E4.ext
  refine ⟨?_, x3.trans E4.ext, ?_, rfl, ⟨lt_of_lt_of_le E1.lt x14.next, lt_of_lt_of_le E2.lt x24.next,
    lt_of_lt_of_le E3.lt E4.ext.next, E4.lt⟩, F1, F2, F3, F4, ?_, ?_⟩
  · rw [Motion.new, if_pos hwa, if_pos hax]
    simp only [MotionObj.view, v4, E4.ext.cell r3 E3.lt, v3, x24.cell r2 E2.lt, v2]
  · dsimp only
    rw [x14.cell r1 E1.lt, E1.value]
  · intro l hl; exact E1.old l ((keptBy_iff _ _ _).1 hl)
  · intro l hl; exact E3.old l ((keptBy_iff _ _ _).1 hl)

/-- C75 (motions, partial).  Constructing a motion leaves the caller's arrays alone; later edits of arrays it did not keep
change neither the motion nor what `inverse` returns.  Missing: edits of the float64 arrays on the default device that
were passed as axis, angle, translation or origin (`C75_kept_translation_fails`, `C75_kept_axis_inverse_fails`). -/
theorem C75_motion_owns_its_data_partial {cpu : Bool} {h : Heap} {axis angle translation origin : Arg} {m : MotionObj}
    {h1 : Heap} (ha : ArgIn axis h.next) (hw : ArgIn angle h.next) (ht : ArgIn translation h.next)
    (ho : ArgIn origin h.next) (hn : MotionObj.new cpu h axis angle translation origin = .ok (m, h1)) :
    Motion.new (axis.value h).vec (angle.value h).real (translation.value h).vec (origin.value h).vec =
        .ok (m.view h1) ∧
    (∀ l < h.next, h1.cell l = h.cell l) ∧
    ∀ edits : List (ℕ × Cell),
      (∀ e ∈ edits, e.1 < h.next ∧ ¬ KeptBy cpu axis e.1 ∧ ¬ KeptBy cpu angle e.1 ∧ ¬ KeptBy cpu translation e.1 ∧
        ¬ KeptBy cpu origin e.1) →
      m.view (edited h1 edits) = m.view h1 ∧
      (m.inverse cpu (edited h1 edits)).map (fun r => r.1.view r.2) = (m.view h1).inverse := by
  obtain ⟨hv, ext, cax, hrot, ⟨l1, l2, l3, l4⟩, f1, f2, f3, f4, -, -⟩ := MotionObj.new_ok ha hw ht ho hn
  refine ⟨hv, ext.cell, ?_⟩
  intro edits he
  have c1 := edited_avoid (h := h1) edits (l := m.axis) fun e hm => (f1 e.1 (he e hm).1 (he e hm).2.1).symm
  have c2 := edited_avoid (h := h1) edits (l := m.angle) fun e hm => (f2 e.1 (he e hm).1 (he e hm).2.2.1).symm
  have c3 := edited_avoid (h := h1) edits (l := m.translation) fun e hm => (f3 e.1 (he e hm).1 (he e hm).2.2.2.1).symm
  have c4 := edited_avoid (h := h1) edits (l := m.origin) fun e hm => (f4 e.1 (he e hm).1 (he e hm).2.2.2.2).symm
  have hnx : (edited h1 edits).next = h1.next := by
    clear he c1 c2 c3 c4
    have : ∀ (es : List (ℕ × Cell)) (g : Heap), (edited g es).next = g.next := by
      intro es
      induction es with
      | nil => intro g; rfl
      | cons e es ih => intro g; exact ih (g.write e.1 e.2)
    exact this edits h1
  generalize hg : edited h1 edits = g at c1 c2 c3 c4 hnx
  have hview : m.view g = m.view h1 := by simp only [MotionObj.view, c2, c3, c4]
  refine ⟨hview, ?_⟩
  have hax : (g.cell m.axis).vec = m.rotAxis := by rw [c1, cax, hrot]
  -- the angle tensor is in use before and after the three allocations
  have a2 : m.angle < g.next := by omega
  unfold MotionObj.inverse
  dsimp only
  rw [hax]
  set h2 := (g.alloc (.points [-m.rotAxis])).2 with h2d
  set h3 := (h2.alloc (.points [-(g.cell m.translation).vec])).2 with h3d
  set h4 := (h3.alloc (g.cell m.origin)).2 with h4d
  have k2 : h2.next = g.next + 1 := rfl
  have k3 : h3.next = g.next + 2 := rfl
  have k4 : h4.next = g.next + 3 := rfl
  have x23 : Heap.Ext h2 h3 := Heap.ext_alloc _ _
  have x34 : Heap.Ext h3 h4 := Heap.ext_alloc _ _
  have x02 : Heap.Ext g h2 := Heap.ext_alloc _ _
  have e1 : h4.cell g.next = .points [-m.rotAxis] := by
    rw [(x23.trans x34).cell _ (by omega), h2d, Heap.alloc_cell, if_pos rfl]
  have e2 : h4.cell h2.next = .points [-(g.cell m.translation).vec] := by
    rw [x34.cell _ (by omega), h3d, Heap.alloc_cell, if_pos rfl]
  have e3 : h4.cell h3.next = g.cell m.origin := by rw [h4d, Heap.alloc_cell, if_pos rfl]
  have e4 : h4.cell m.angle = g.cell m.angle := (x02.trans (x23.trans x34)).cell _ a2
  simp only [Heap.alloc_fst, MotionObj.new, Arg.value, Arg.ensureTorch, Bool.and_self, if_true, e1, e4]
  have : (m.view h1) = ⟨m.rotAxis, (g.cell m.angle).real, (g.cell m.translation).vec, (g.cell m.origin).vec⟩ := by
    rw [← hview]; rfl
  rw [this]
  simp only [Motion.inverse, Motion.new, Cell.vec, Cell.pts, List.headD_cons]
  by_cases hA : (g.cell m.angle).real < Real.pi ∧ (g.cell m.angle).real > 0
  · by_cases hB : axisAccepted (-m.rotAxis)
    · simp only [hA, hB, and_self, ↓reduceIte, Except.map, MotionObj.view, e2, e3, e4, Cell.vec, Cell.pts, List.headD_cons]
    · simp only [hA, hB, and_self, ↓reduceIte, Except.map]
  · simp only [hA, ↓reduceIte, Except.map]

/-- C75 (motions, the missing part is false).  When the translation is a float64 array on the default device, a later
write into that array changes the translation of the motion. -/
theorem C75_kept_translation_fails {cpu : Bool} {h : Heap} {axis angle translation origin : Arg} {m : MotionObj}
    {h1 : Heap} (ha : ArgIn axis h.next) (hw : ArgIn angle h.next) (ht : ArgIn translation h.next)
    (ho : ArgIn origin h.next) (hn : MotionObj.new cpu h axis angle translation origin = .ok (m, h1)) {l : ℕ}
    (hl : l < h.next) (hk : KeptBy cpu translation l) (hkw : ¬ KeptBy cpu angle l) (hko : ¬ KeptBy cpu origin l) (v : V3) :
    m.view (h1.write l (.points [v])) = { m.view h1 with translation := v } := by
  obtain ⟨-, -, -, -, -, -, f2, f3, f4, -, k3⟩ := MotionObj.new_ok ha hw ht ho hn
  simp only [MotionObj.view, Heap.write_cell]
  rw [if_neg (f2 l hl hkw), if_neg (f4 l hl hko), if_pos (k3 l hk)]
  rfl

/-- the caller's memory in the examples: two vectors -/
noncomputable def twoVectors (a b : V3) : Heap := ⟨2, fun l => if l = 0 then .points [a] else .points [b]⟩

/-- C75 (motions, the missing part is false, second form).  The rotation axis array `[0,0,1]` is later overwritten with
`[1,0,0]`.  The motion still rotates about `[0,0,1]`, but `inverse` now rotates about `-[1,0,0]`: it succeeds and does
not undo the motion. -/
theorem C75_kept_axis_inverse_fails :
    ∃ (h h1 h2 : Heap) (m i : MotionObj) (p : V3), 
      MotionObj.new true h (.numpy 0 true) (.python (.reals [1])) (.numpy 1 true) (.python (.points [0])) = .ok (m, h1) ∧
      m.view (h1.write 0 (.points [⟨1, 0, 0⟩])) = m.view h1 ∧
      m.inverse true (h1.write 0 (.points [⟨1, 0, 0⟩])) = .ok (i, h2) ∧
      (i.view h2).call1 ((m.view (h1.write 0 (.points [⟨1, 0, 0⟩]))).call1 p 1) 1 ≠ p := by
  have hpi : (1:ℝ) < Real.pi := by have := Real.pi_gt_three; linarith
  have n1 : norm (⟨0, 0, 1⟩ : V3) = 1 := norm_ez
  have n2 : norm (-(⟨1, 0, 0⟩ : V3)) = 1 := by rw [norm_eq_one]; simp [nsq, V3.dot]
  have a1 : axisAccepted (⟨0, 0, 1⟩ : V3) := by unfold axisAccepted allclose; rw [n1]; norm_num
  have a2 : axisAccepted (-(⟨1, 0, 0⟩ : V3)) := by unfold axisAccepted allclose; rw [n2]; norm_num
  have hw : (1:ℝ) < Real.pi ∧ (1:ℝ) > 0 := ⟨hpi, one_pos⟩
  set h := twoVectors ⟨0, 0, 1⟩ 0 with hh
  have e1 : ∃ m h1, MotionObj.new true h (.numpy 0 true) (.python (.reals [1])) (.numpy 1 true)
      (.python (.points [0])) = .ok (m, h1) ∧ m = ⟨⟨0, 0, 1⟩, 0, 2, 1, 3⟩ ∧
      h1 = ⟨4, fun l => if l = 3 then .points [0] else if l = 2 then .reals [1] else if l = 0 then .points [⟨0, 0, 1⟩]
        else .points [0]⟩ := by
    refine ⟨_, _, ?_, rfl, rfl⟩
    simp only [MotionObj.new, Arg.value, Cell.real, Cell.rs, List.headD_cons, if_pos hw, hh, twoVectors, if_true,
      Cell.vec, Cell.pts, if_pos a1, Arg.ensureTorch, Bool.and_self, Heap.alloc, Except.ok.injEq, Prod.mk.injEq, true_and,
      Heap.mk.injEq]
    funext l
    simp [Function.update_apply]
  obtain ⟨m, h1, hm, rfl, rfl⟩ := e1
  set g : Heap := Heap.write ⟨4, fun l => if l = 3 then .points [0] else if l = 2 then .reals [1] else
    if l = 0 then .points [⟨0, 0, 1⟩] else .points [0]⟩ 0 (.points [⟨1, 0, 0⟩]) with hg
  have e2 : ∃ i h2, MotionObj.inverse true g ⟨⟨0, 0, 1⟩, 0, 2, 1, 3⟩ = .ok (i, h2) ∧
      i.view h2 = ⟨-(⟨1, 0, 0⟩ : V3), 1, -(0 : V3), 0⟩ := by
    refine ⟨⟨-(⟨1, 0, 0⟩ : V3), 4, 2, 5, 6⟩, ⟨7, fun l => if l = 6 then .points [0] else if l = 5 then .points [-(0 : V3)] else
        if l = 4 then .points [-(⟨1, 0, 0⟩ : V3)] else if l = 0 then .points [⟨1, 0, 0⟩] else if l = 3 then .points [0]
        else if l = 2 then .reals [1] else .points [0]⟩, ?_, ?_⟩
    · simp only [MotionObj.inverse, MotionObj.new, hg, Heap.alloc, Heap.write, Arg.value, Arg.ensureTorch, Cell.real,
        Cell.rs, Cell.vec, Cell.pts, Function.update_apply]
      norm_num [hpi, a2, Cell.real, Cell.rs, Cell.vec, Cell.pts]
      funext l
      simp only [Function.update_apply]
      by_cases h0 : l = 0
      · simp [h0]
      · simp [h0]
    · simp [MotionObj.view, Cell.real, Cell.rs, Cell.vec, Cell.pts]
  obtain ⟨i, h2, hi, hiv⟩ := e2
  refine ⟨h, _, h2, _, i, ⟨0, 0, 1⟩, hm, ?_, hi, ?_⟩
  · simp [MotionObj.view, Heap.write_cell]
  · rw [hiv]
    have hmv : MotionObj.view g ⟨⟨0, 0, 1⟩, 0, 2, 1, 3⟩ = ⟨⟨0, 0, 1⟩, 1, 0, 0⟩ := by
      simp [hg, MotionObj.view, Heap.write_cell, Cell.vec, Cell.pts, Cell.real, Cell.rs]
    rw [hmv]
    intro hc
    have hz := congrArg V3.z hc
    have hcos : Real.cos 1 < 1 := by
      have := Real.cos_lt_cos_of_nonneg_of_le_pi (le_refl 0) hpi.le one_pos
      simpa using this
    simp [Motion.call1, rotMat, crossMat, crossMat2, M3.mulVec, M3.vecMul, V3.dot] at hz
    linarith

/-! ### Detectors -/

/-- what constructing a detector does to the memory -/
theorem DetObj.new_ok {cpu : Bool} {h : Heap} {c0 c1 c2 : Arg} {np : PixArg ℤ} {ps : PixArg ℝ} {sg th : ℝ} {mr : ℤ}
    {ul up us : Bool} {d : DetObj} {h1 : Heap} (h0 : ArgIn c0 h.next) (hc1 : ArgIn c1 h.next) (h2 : ArgIn c2 h.next)
    (hn : DetObj.new cpu h c0 c1 c2 np ps sg th mr ul up us = .ok (d, h1)) :
    Detector.new (c0.value h).vec (c1.value h).vec (c2.value h).vec np ps sg th mr ul up us = .ok (d.view h1) ∧
      d.rest = d.view h1 ∧ Heap.Ext h h1 ∧
      (∀ l < h.next, ¬ KeptBy cpu c0 l → d.c0 ≠ l) ∧ (∀ l < h.next, ¬ KeptBy cpu c1 l → d.c1 ≠ l) ∧
      (∀ l < h.next, ¬ KeptBy cpu c2 l → d.c2 ≠ l) ∧ (∀ l, KeptBy cpu c0 l → d.c0 = l) := by
  unfold DetObj.new at hn
  have E1 := c0.ensured cpu h h0.to
  have F1 := fun l (hl : l < h.next) hk => ensured_ref (cpu := cpu) h0 (le_refl _) hl hk
  generalize c0.ensureTorch cpu h = r at E1 F1 hn
  obtain ⟨r1, g1⟩ := r
  dsimp only at E1 F1 hn
  have E2 := c1.ensured cpu g1 (hc1.to.mono E1.ext.next)
  have F2 := fun l (hl : l < h.next) hk => ensured_ref (cpu := cpu) hc1 E1.ext.next hl hk
  have v2 := E2.value
  rw [Arg.value_ext hc1.to E1.ext] at v2
  generalize c1.ensureTorch cpu g1 = r at E2 F2 v2 hn
  obtain ⟨r2, g2⟩ := r
  dsimp only at E2 F2 v2 hn
  have x2 := E1.ext.trans E2.ext
  have E3 := c2.ensured cpu g2 (h2.to.mono x2.next)
  have F3 := fun l (hl : l < h.next) hk => ensured_ref (cpu := cpu) h2 x2.next hl hk
  have v3 := E3.value
  rw [Arg.value_ext h2.to x2] at v3
  generalize c2.ensureTorch cpu g2 = r at E3 F3 v3 hn
  obtain ⟨r3, g3⟩ := r
  dsimp only at E3 F3 v3 hn
  have e1 : g3.cell r1 = c0.value h := by rw [(E2.ext.trans E3.ext).cell r1 E1.lt, E1.value]
  have e2 : g3.cell r2 = c1.value h := by rw [E3.ext.cell r2 E2.lt, v2]
  rw [e1, e2, v3] at hn
  cases hD : Detector.new (c0.value h).vec (c1.value h).vec (c2.value h).vec np ps sg th mr ul up us with
  | error er => rw [hD] at hn; simp at hn
  | ok D =>
    rw [hD] at hn
    simp only [Except.ok.injEq, Prod.mk.injEq] at hn
    obtain ⟨rfl, rfl⟩ := hn
    have hc : D.c0 = (c0.value h).vec ∧ D.c1 = (c1.value h).vec ∧ D.c2 = (c2.value h).vec := by
      unfold Detector.new at hD
      dsimp only at hD
      split at hD
      · simp at hD
      · split_ifs at hD
        simp only [Except.ok.injEq] at hD
        subst hD
        exact ⟨rfl, rfl, rfl⟩
    have hv : DetObj.view g3 ⟨r1, r2, r3, D⟩ = D := by
      simp only [DetObj.view, e1, e2, v3, ← hc.1, ← hc.2.1, ← hc.2.2]
    refine ⟨by rw [hv], hv.symm, x2.trans E3.ext, F1, F2, F3, ?_⟩
    intro l hl; exact E1.old l ((keptBy_iff _ _ _).1 hl)

/-- C75 (detectors, partial).  Constructing a detector leaves the caller's arrays alone, and later edits of arrays it did
not keep do not change it.  Missing: edits of corners passed as float64 arrays on the default device
(`C75_kept_corner_fails`). -/
theorem C75_detector_owns_its_data_partial {cpu : Bool} {h : Heap} {c0 c1 c2 : Arg} {np : PixArg ℤ} {ps : PixArg ℝ}
    {sg th : ℝ} {mr : ℤ} {ul up us : Bool} {d : DetObj} {h1 : Heap} (h0 : ArgIn c0 h.next) (hc1 : ArgIn c1 h.next)
    (h2 : ArgIn c2 h.next) (hn : DetObj.new cpu h c0 c1 c2 np ps sg th mr ul up us = .ok (d, h1)) :
    Detector.new (c0.value h).vec (c1.value h).vec (c2.value h).vec np ps sg th mr ul up us = .ok (d.view h1) ∧
    (∀ l < h.next, h1.cell l = h.cell l) ∧
    ∀ edits : List (ℕ × Cell),
      (∀ e ∈ edits, e.1 < h.next ∧ ¬ KeptBy cpu c0 e.1 ∧ ¬ KeptBy cpu c1 e.1 ∧ ¬ KeptBy cpu c2 e.1) →
      d.view (edited h1 edits) = d.view h1 := by
  obtain ⟨hv, -, ext, f0, f1, f2, -⟩ := DetObj.new_ok h0 hc1 h2 hn
  refine ⟨hv, ext.cell, ?_⟩
  intro edits he
  have k1 := edited_avoid (h := h1) edits (l := d.c0) fun e hm => (f0 e.1 (he e hm).1 (he e hm).2.1).symm
  have k2 := edited_avoid (h := h1) edits (l := d.c1) fun e hm => (f1 e.1 (he e hm).1 (he e hm).2.2.1).symm
  have k3 := edited_avoid (h := h1) edits (l := d.c2) fun e hm => (f2 e.1 (he e hm).1 (he e hm).2.2.2).symm
  simp only [DetObj.view, k1, k2, k3]

/-- C75 (detectors, the missing part is false).  When the first corner is a float64 array on the default device, a later
write into that array moves this corner, from which pixel positions and ray intersections are computed, and nothing
else: the axes, the normal and the sizes remain those of the old corners. -/
theorem C75_kept_corner_fails {cpu : Bool} {h : Heap} {c0 c1 c2 : Arg} {np : PixArg ℤ} {ps : PixArg ℝ}
    {sg th : ℝ} {mr : ℤ} {ul up us : Bool} {d : DetObj} {h1 : Heap} (h0 : ArgIn c0 h.next) (hc1 : ArgIn c1 h.next)
    (h2 : ArgIn c2 h.next) (hn : DetObj.new cpu h c0 c1 c2 np ps sg th mr ul up us = .ok (d, h1)) {l : ℕ}
    (hl : l < h.next) (hk : KeptBy cpu c0 l) (hk1 : ¬ KeptBy cpu c1 l) (hk2 : ¬ KeptBy cpu c2 l) (c : V3) :
    d.view (h1.write l (.points [c])) = { d.view h1 with c0 := c } := by
  obtain ⟨-, -, -, f0, f1, f2, k⟩ := DetObj.new_ok h0 hc1 h2 hn
  simp only [DetObj.view, Heap.write_cell]
  rw [if_pos (k l hk), if_neg (f1 l hl hk1), if_neg (f2 l hl hk2)]
  rfl

/-! ### Construction from arrays is construction from their values -/

/-- C75: building a mesh, and a polycrystal on it, from arrays gives what building them from the arrays' values gives,
including the errors. -/
theorem C75_construction_by_value {x : Xfab} {cpu : Bool} {h0 : Heap} {coord : Arg} {enod : List (Q4 ℕ)}
    (hc : ArgIn coord h0.next) :
    (MeshObj.new cpu h0 coord enod).map (fun r => r.1.view r.2) = TetraMesh.new (coord.value h0).pts enod ∧
    ∀ mesh h1, MeshObj.new cpu h0 coord enod = .ok (mesh, h1) → ∀ (U S : MatRef) (phases : PhasesArg) (map : Option Arg),
      MatIn U h0.next → MatIn S h0.next → (∀ a ∈ map, ArgIn a h0.next) →
      (PolyMem.new x cpu h1 mesh U S phases map).map (fun r => r.1.view r.2) =
        Polycrystal.new x (mesh.view h1) (U.value h0) (S.value h0) phases (map.map fun a => (a.value h0).rs) := by
  constructor
  · cases hn : MeshObj.new cpu h0 coord enod with
    | error er => rw [MeshObj.new_error hc.to hn]; rfl
    | ok r => rw [(MeshObj.new_ok hc.to hn).1]; rfl
  · intro mesh h1 hmesh U S phases map hU hS hm
    obtain ⟨-, ok, ext, lo⟩ := MeshObj.new_ok hc.to hmesh
    have vm : (map.map fun a => (a.value h1).rs) = map.map fun a => (a.value h0).rs := by
      cases map with
      | none => rfl
      | some a => simp only [Option.map_some, Arg.value_ext (hm a (by simp)).to ext]
    rw [← MatRef.value_ext hU (le_refl _) ext, ← MatRef.value_ext hS (le_refl _) ext, ← vm]
    cases hn : PolyMem.new x cpu h1 mesh U S phases map with
    | error er => rw [PolyMem.new_error ext.next hU hS hm hn]; rfl
    | ok r => rw [(PolyMem.new_ok ext.next hU hS hm ok lo hn).1]; rfl

end XRD
