import Verif.Lemmas.Motion
import Mathlib.Tactic.NormNum
import Mathlib.Analysis.Real.Pi.Bounds

/-! Properties C05-C09: rigid body motions. -/

namespace XRD
open V3 M3

/-! ### A concrete accepted motion, used in the examples -/

/-- quarter turn about z with a translation and an off-centre origin -/
noncomputable def demoMotion : Motion := ⟨⟨0, 0, 1⟩, Real.pi / 2, ⟨1, 2, 3⟩, ⟨4, 5, 6⟩⟩

theorem norm_ez : (⟨0, 0, 1⟩ : V3).norm = 1 := by rw [norm_eq_one]; simp [nsq, V3.dot]

theorem demoMotion_new : Motion.new demoMotion.axis demoMotion.angle demoMotion.translation demoMotion.origin
    = .ok demoMotion := by
  have : Real.pi / 2 < Real.pi ∧ Real.pi / 2 > 0 := ⟨by linarith [Real.pi_pos], by linarith [Real.pi_pos]⟩
  have hax : axisAccepted ⟨0, 0, 1⟩ := by
    unfold axisAccepted allclose; rw [norm_ez]; norm_num
  simp [Motion.new, demoMotion, this, hax]

/-- What the constructor accepts. -/
theorem Motion.new_ok {a : V3} {w : ℝ} {T o : V3} {m : Motion} (h : Motion.new a w T o = .ok m) :
    m = ⟨a, w, T, o⟩ ∧ 0 < w ∧ w < Real.pi ∧ axisAccepted a := by
  unfold Motion.new at h
  split_ifs at h with h1 h2
  exact ⟨(Except.ok.inj h).symm, h1.2, h1.1, h2⟩

/-! ### C05 -/

theorem call1_sub (m : Motion) (p q : V3) (t : ℝ) :
    m.call1 p t - m.call1 q t = (rotMat m.axis (m.angle * t)).mulVec (p - q) := by
  simp only [Motion.call1, mulVec_sub]
  ext <;> simp

/-- C05 (exactly unit axis): a motion preserves all distances and handedness, at every time. -/
theorem C05_motion_is_rigid_partial (a T o : V3) (w t : ℝ) (m : Motion)
    (hm : Motion.new a w T o = .ok m) (ha : norm a = 1) : Spec.RigidMap (fun p => m.call1 p t) := by
  obtain ⟨rfl, -, -, -⟩ := Motion.new_ok hm
  have h1 : nsq a = 1 := norm_eq_one.mp ha
  obtain ⟨ho, -, hd⟩ := rotMat_isRot h1 (w * t)
  constructor
  · intro p q
    unfold V3.dist
    rw [call1_sub, norm_eq_iff, IsRot.nsq_mulVec ho]
  · intro p x y z
    simp only [call1_sub]
    have key : ∀ (M : M3) (u v s : V3),
        dot (cross (M.mulVec u) (M.mulVec v)) (M.mulVec s) = M.det * dot (cross u v) s := by
      intro M u v s
      simp only [mulVec, V3.dot, cross, det]; ring
    rw [key, hd, one_mul]

/-- C05 for every accepted motion: squared distances are preserved up to the relative error `1e-4` that the
constructor's axis tolerance allows. -/
theorem C05_motion_is_nearly_rigid (a T o : V3) (w t : ℝ) (m : Motion) (hm : Motion.new a w T o = .ok m) (p q : V3) :
    |V3.dist (m.call1 p t) (m.call1 q t) ^ 2 - V3.dist p q ^ 2| ≤ 1 / 10 ^ 4 * V3.dist p q ^ 2 := by
  obtain ⟨rfl, -, -, hax⟩ := Motion.new_ok hm
  unfold V3.dist
  rw [call1_sub, V3.norm_sq, V3.norm_sq]
  exact nearly_isometric hax _ _

/-- C05 fails as stated: an accepted axis of length `1 + 1e-6` gives a motion that is not rigid. -/
theorem C05_motion_is_rigid_fails :
    ∃ (a T o : V3) (w t : ℝ) (m : Motion), Motion.new a w T o = .ok m ∧ ¬ Spec.RigidMap (fun p => m.call1 p t) := by
  have hn : (⟨1 + 1 / 10 ^ 6, 0, 0⟩ : V3).norm = 1 + 1 / 10 ^ 6 := by
    unfold V3.norm nsq V3.dot
    rw [Real.sqrt_eq_iff_mul_self_eq (by norm_num) (by norm_num)]; norm_num
  have hpi : Real.pi / 2 < Real.pi ∧ Real.pi / 2 > 0 := ⟨by linarith [Real.pi_pos], by linarith [Real.pi_pos]⟩
  have hax : axisAccepted ⟨1 + 1 / 10 ^ 6, 0, 0⟩ := by
    unfold axisAccepted allclose; rw [hn]; norm_num [abs_of_nonneg]
  refine ⟨⟨1 + 1 / 10 ^ 6, 0, 0⟩, 0, 0, Real.pi / 2, 1, ⟨⟨1 + 1 / 10 ^ 6, 0, 0⟩, Real.pi / 2, 0, 0⟩, ?_, ?_⟩
  · simp only [Motion.new, hpi, hax, and_self, if_true]
  · rintro ⟨h, -⟩
    have h1 := h ⟨0, 1, 0⟩ 0
    unfold V3.dist at h1
    rw [call1_sub, norm_eq_iff, nsq_rotMat_mulVec] at h1
    norm_num [nsq, V3.dot] at h1

example : Motion.new demoMotion.axis demoMotion.angle demoMotion.translation demoMotion.origin = .ok demoMotion ∧
    norm demoMotion.axis = 1 := ⟨demoMotion_new, norm_ez⟩

/-! ### C06 -/

/-- C06: at time 0 a motion is the identity (any axis). -/
theorem C06_identity_at_time_zero (m : Motion) (p : V3) : m.call1 p 0 = p := by
  simp only [Motion.call1, mul_zero, rotMat_zero, one_mulVec]
  ext <;> simp

/-- C06: a motion with unit axis is the textbook "rotate by `t*angle` about the axis through the origin, then
translate by `t*T`". -/
theorem C06_motion_is_rotation_then_translation (a T o : V3) (w t : ℝ) (m : Motion)
    (hm : Motion.new a w T o = .ok m) (ha : norm a = 1) (p : V3) : m.call1 p t = Spec.move a w T o t p := by
  obtain ⟨rfl, -, -, -⟩ := Motion.new_ok hm
  simp only [Motion.call1, Spec.move, rotMat_eq_spec (norm_eq_one.mp ha), mul_comm w t]
  ext <;> simp <;> ring

/-- C06: points of the axis through the origin are only translated (any accepted axis). -/
theorem C06_axis_points_only_translated (m : Motion) (s t : ℝ) :
    m.call1 (m.origin + s • m.axis) t = m.origin + s • m.axis + t • m.translation := by
  simp only [Motion.call1, rotMat_mulVec]
  ext <;> simp [cross, V3.dot, nsq] <;> ring

/-- C06: rotating twice about a unit axis is rotating by the sum of the angles. -/
theorem C06_rotations_compose (m : Motion) (ha : norm m.axis = 1) (v : V3) (s t : ℝ) :
    m.rotate1 (m.rotate1 v s) t = m.rotate1 v (s + t) := by
  simp only [Motion.rotate1, ← mulVec_mul, rotMat_mul (norm_eq_one.mp ha)]
  congr 2; ring

/-- the rotation is right handed: a quarter turn about z takes x to y -/
theorem C06_right_handed : Spec.rotate ⟨0, 0, 1⟩ (Real.pi / 2) ⟨1, 0, 0⟩ = ⟨0, 1, 0⟩ := by
  ext <;> simp [Spec.rotate, cross, V3.dot]

example : demoMotion.call1 ⟨5, 5, 6⟩ 1 = ⟨5, 8, 9⟩ := by
  rw [C06_motion_is_rotation_then_translation _ _ _ _ _ _ demoMotion_new norm_ez]
  ext <;> simp [demoMotion, Spec.move, Spec.rotate, cross, V3.dot] <;> norm_num

/-! ### C07 -/

/-- the constructor call inside `inverse` never fails -/
theorem C07_inverse_exists (a T o : V3) (w : ℝ) (m : Motion) (hm : Motion.new a w T o = .ok m) :
    m.inverse = .ok ⟨-a, w, -T, o⟩ := by
  obtain ⟨rfl, h1, h2, h3⟩ := Motion.new_ok hm
  have : axisAccepted (-a) := by unfold axisAccepted at *; rwa [V3.norm_neg]
  simp [Motion.inverse, Motion.new, h1, h2, this]

theorem inverse_call (m : Motion) (ha : norm m.axis = 1) (t : ℝ) (p : V3) :
    (⟨-m.axis, m.angle, -m.translation, m.origin⟩ : Motion).call1 (m.call1 p t) t
      = p + (rotMat m.axis (m.angle * t)).tr.mulVec (t • m.translation) - t • m.translation := by
  have h := (rotMat_isRot (norm_eq_one.mp ha) (m.angle * t)).1
  simp only [Motion.call1, rotMat_neg_axis]
  generalize rotMat m.axis (m.angle * t) = R at *
  have e : R.mulVec (p - m.origin) + m.origin + t • m.translation - m.origin
      = R.mulVec (p - m.origin) + t • m.translation := by abel
  rw [e, mulVec_add, ← mulVec_mul, h, one_mulVec]
  ext <;> simp <;> ring

/-- C07 (characterisation): for a unit axis and a time in `(0,1]` the inverse undoes the motion for all points exactly
when the translation is parallel to the rotation axis. -/
theorem C07_inverse_undoes_motion_partial (a T o : V3) (w t : ℝ) (m m' : Motion) (hm : Motion.new a w T o = .ok m)
    (hi : m.inverse = .ok m') (ha : norm a = 1) (ht0 : 0 < t) (ht1 : t ≤ 1) :
    (∀ p, m'.call1 (m.call1 p t) t = p) ↔ cross a T = 0 := by
  rw [C07_inverse_exists a T o w m hm] at hi
  obtain rfl := Except.ok.inj hi
  obtain ⟨rfl, hw0, hw1, -⟩ := Motion.new_ok hm
  have h1 : nsq a = 1 := norm_eq_one.mp ha
  have key := fun p => inverse_call ⟨a, w, T, o⟩ ha t p
  simp only at key
  simp only [key]
  have hang : 0 < w * t := mul_pos hw0 ht0
  have hang2 : w * t < Real.pi := by nlinarith
  have hcos : Real.cos (w * t) < 1 := by
    rw [← Real.cos_zero]
    exact Real.cos_lt_cos_of_nonneg_of_le_pi (le_refl _) hang2.le hang
  rw [← rotMat_neg_axis]
  constructor
  · intro h
    have h0 := h 0
    have hRT : (rotMat (-a) (w * t)).mulVec (t • T) = t • T := by
      rwa [zero_add, sub_eq_zero] at h0
    have hna : nsq (-a) = 1 := by rw [← norm_eq_one, V3.norm_neg]; exact ha
    -- take the product with T : (1 - cos) (|T|^2 - (a.T)^2) = 0
    have hd := congrArg (dot T) hRT
    rw [rotMat_mulVec, hna] at hd
    have hz : (1 - Real.cos (w * t)) * t * (nsq a * nsq T - (dot a T) ^ 2) = 0 := by
      rw [h1]
      simp only [V3.dot, cross, nsq, V3.add_x, V3.add_y, V3.add_z, V3.sub_x, V3.sub_y, V3.sub_z, V3.smul_x, V3.smul_y,
        V3.smul_z, V3.neg_x, V3.neg_y, V3.neg_z] at hd ⊢
      linear_combination -hd
    rw [← V3.lagrange] at hz
    have : (cross a T).nsq = 0 := by
      rcases mul_eq_zero.mp hz with hz | hz
      · rcases mul_eq_zero.mp hz with hz | hz <;> linarith
      · exact hz
    exact nsq_eq_zero.mp this
  · intro hc p
    have hT : dot a T • a = T := by
      have hl := V3.lagrange a T
      rw [hc] at hl
      have e : nsq (dot a T • a - T) = 0 := by
        have : nsq (dot a T • a - T) = (dot a T)^2 * nsq a - 2 * (dot a T)^2 + nsq T := by
          simp only [nsq, V3.dot, V3.sub_x, V3.sub_y, V3.sub_z, V3.smul_x, V3.smul_y, V3.smul_z]; ring
        rw [this, h1]
        simp [nsq, V3.dot] at hl h1 ⊢
        rw [h1] at hl; linarith
      exact sub_eq_zero.mp (nsq_eq_zero.mp e)
    have hcx : ∀ v : V3, v = dot a T • a → cross (-a) (t • v) = 0 := by
      rintro v rfl; ext <;> simp [cross] <;> ring
    have hRT : (rotMat (-a) (w * t)).mulVec (t • T) = t • T := by
      have hna : nsq (-a) = 1 := by rw [← norm_eq_one, V3.norm_neg]; exact ha
      rw [rotMat_mulVec, hcx T hT.symm, hna]
      have : dot (-a) (t • T) • (-a) = t • T := by
        conv_rhs => rw [← hT]
        ext <;> simp [V3.dot] <;> ring
      rw [this]; ext <;> simp
    rw [hRT]; ext <;> simp

/-- C07 fails as stated: rotating about z while translating along x is not undone by `inverse()`. -/
theorem C07_inverse_undoes_motion_fails :
    ∃ (a T o : V3) (w t : ℝ) (m m' : Motion) (p : V3), Motion.new a w T o = .ok m ∧ m.inverse = .ok m' ∧
      norm a = 1 ∧ 0 < t ∧ t ≤ 1 ∧ m'.call1 (m.call1 p t) t ≠ p := by
  have hpi : Real.pi / 2 < Real.pi ∧ Real.pi / 2 > 0 := ⟨by linarith [Real.pi_pos], by linarith [Real.pi_pos]⟩
  have hax : axisAccepted ⟨0, 0, 1⟩ := by
    unfold axisAccepted allclose; rw [norm_ez]; norm_num
  have hm : Motion.new ⟨0, 0, 1⟩ (Real.pi / 2) ⟨1, 0, 0⟩ 0 = .ok ⟨⟨0, 0, 1⟩, Real.pi / 2, ⟨1, 0, 0⟩, 0⟩ := by
    simp [Motion.new, hpi, hax]
  have hi := C07_inverse_exists _ _ _ _ _ hm
  have := (C07_inverse_undoes_motion_partial _ _ _ _ 1 _ _ hm hi norm_ez one_pos le_rfl)
  by_contra hcon
  push Not at hcon
  have h2 := this.mp (fun p => hcon _ _ _ _ 1 _ _ p hm hi norm_ez one_pos le_rfl)
  have := congrArg V3.y h2
  simp [cross] at this

/-- non-vacuity of the characterisation: a screw motion (translation along the axis) is undone -/
example : cross (⟨0, 0, 1⟩ : V3) ⟨0, 0, 5⟩ = 0 := by ext <;> simp [cross]

/-! ### C08 -/

/-- C08, shape `(N,3)` with scalar time: every row is moved as a single point. -/
theorem C08_batch_scalar_time (m : Motion) (vs : List V3) (t : ℝ) :
    m.call2 vs (.scalar t) = .ok (vs.map (fun v => m.call1 v t)) := by
  simp [Motion.call2, Motion.call1, Function.comp_def]

/-- C08, shape `(N,3)` with per-row times. -/
theorem C08_batch_per_row_times (m : Motion) (vs : List V3) (ts : List ℝ) (h : ts.length = vs.length) :
    m.call2 vs (.vec ts) = .ok (List.zipWith (fun v t => m.call1 v t) vs ts) := by
  have key : ∀ (vs : List V3) (ts : List ℝ),
      List.zipWith (fun v t => v + t • m.translation)
        ((List.zipWith (fun θ v => (rotMat m.axis θ).mulVec v) (ts.map (m.angle * ·)) (vs.map (· - m.origin))).map
          (· + m.origin)) ts
      = List.zipWith (fun v t => m.call1 v t) vs ts := by
    intro vs
    induction vs with
    | nil => intro ts; cases ts <;> simp
    | cons v vs ih =>
      intro ts
      cases ts with
      | nil => simp
      | cons t ts => simp only [List.map_cons, List.zipWith_cons_cons]; rw [ih]; rfl
  simp only [Motion.call2, Motion.rotatorBatch, List.length_map, h, if_true]
  show Except.ok _ = _
  rw [key]

/-- a per-row time vector of the wrong length is an error, not a silent broadcast -/
theorem C08_batch_length_mismatch (m : Motion) (vs : List V3) (ts : List ℝ) (h : ts.length ≠ vs.length) :
    m.call2 vs (.vec ts) = .error .runtimeError := by
  simp only [Motion.call2, Motion.rotatorBatch, List.length_map, h, if_false]; rfl

/-- C08 for `rotate` (directions, no translation) with per-row times: every row is rotated by the motion's angle times its own time. -/
theorem C08_rotate_rows (m : Motion) (vs : List V3) (ts : List ℝ) (h : ts.length = vs.length) :
    m.rotateBatch vs ts = .ok (List.zipWith (fun v t => (rotMat m.axis (m.angle * t)).mulVec v) vs ts) := by
  have key : ∀ (vs : List V3) (ts : List ℝ),
      List.zipWith (fun θ v => (rotMat m.axis θ).mulVec v) (ts.map (m.angle * ·)) vs
      = List.zipWith (fun v t => (rotMat m.axis (m.angle * t)).mulVec v) vs ts := by
    intro vs
    induction vs with
    | nil => intro ts; cases ts <;> simp
    | cons v vs ih =>
      intro ts
      cases ts with
      | nil => simp
      | cons t ts => simp only [List.map_cons, List.zipWith_cons_cons]; rw [ih]
  simp only [Motion.rotateBatch, Motion.rotatorBatch, List.length_map, h, if_true]
  rw [key]

/-- `rotate` with a time vector of the wrong length is an error -/
theorem C08_rotate_length_mismatch (m : Motion) (vs : List V3) (ts : List ℝ) (h : ts.length ≠ vs.length) :
    m.rotateBatch vs ts = .error .runtimeError := by
  simp only [Motion.rotateBatch, Motion.rotatorBatch, List.length_map, h, if_false]

theorem tileTReshape_cons (t : ℝ) (ts : List ℝ) (M : ℕ) :
    Motion.tileTReshape (t :: ts) M = List.replicate M t ++ Motion.tileTReshape ts M := by
  unfold Motion.tileTReshape
  rw [show (t :: ts).length * M = M + ts.length * M from by simp; ring, List.range_add, List.map_append]
  congr 1
  · rw [List.eq_replicate_iff]
    constructor
    · simp
    · intro b hb
      simp only [List.mem_map, List.mem_range] at hb
      obtain ⟨i, hi, rfl⟩ := hb
      rw [Nat.div_eq_of_lt hi]; simp
  · rw [List.map_map]
    apply List.map_congr_left
    intro i hi
    have hM : 0 < M := by
      rcases Nat.eq_zero_or_pos M with h | h
      · subst h; simp at hi
      · exact h
    simp only [Function.comp_apply]
    rw [show M + i = i + M from by ring, Nat.add_div_right _ hM]
    simp

theorem reshape_flatten (N M : ℕ) (rows : List (List V3)) (hN : rows.length = N) (hM : ∀ r ∈ rows, r.length = M) :
    Motion.reshapeNM rows.flatten N M = rows := by
  subst hN
  induction rows with
  | nil => simp [Motion.reshapeNM]
  | cons r rows ih =>
    have hr : r.length = M := hM r (by simp)
    have ih' := ih (fun r hr => hM r (by simp [hr]))
    unfold Motion.reshapeNM at ih' ⊢
    rw [List.length_cons, List.range_succ_eq_map, List.map_cons, List.map_map]
    congr 1
    · rw [List.flatten_cons]
      apply List.ext_getElem
      · simp [hr]
      · intro i h1 h2
        simp at h1
        simp [List.getElem?_append_left h2, List.getElem?_eq_getElem h2]
    · conv_rhs => rw [← ih']
      apply List.map_congr_left
      intro n _
      simp only [Function.comp_apply]
      apply List.map_congr_left
      intro i _
      rw [List.flatten_cons]
      simp only [List.getD_eq_getElem?_getD]
      rw [List.getElem?_append_right (by rw [hr]; nlinarith [Nat.zero_le n]), hr]
      congr 2
      rw [show n.succ * M + i = M + (n * M + i) from by rw [Nat.succ_mul]; ring]
      simp

/-- C08, shape `(N,M,3)` with one time per block: every point of block `n` is moved with `times[n]`. -/
theorem C08_batch_blocks (m : Motion) (vs : List (List V3)) (M : ℕ) (ts : List ℝ) (h : ts.length = vs.length)
    (hM : ∀ row ∈ vs, row.length = M) :
    m.call3 vs M ts = .ok (List.zipWith (fun row t => row.map (fun v => m.call1 v t)) vs ts) := by
  set g : ℝ → V3 → V3 := fun t v => (rotMat m.axis (m.angle * t)).mulVec (v - m.origin) with hg
  have hflat : ∀ (vs : List (List V3)) (ts : List ℝ), ts.length = vs.length → (∀ row ∈ vs, row.length = M) →
      ((Motion.tileTReshape ts M).map (m.angle * ·)).length = ((vs.map (·.map (· - m.origin))).flatten).length ∧
      List.zipWith (fun θ v => (rotMat m.axis θ).mulVec v) ((Motion.tileTReshape ts M).map (m.angle * ·))
        ((vs.map (·.map (· - m.origin))).flatten)
      = (List.zipWith (fun row t => row.map (g t)) vs ts).flatten := by
    intro vs
    induction vs with
    | nil => intro ts h _; have : ts = [] := by simpa using h
             subst this; simp [Motion.tileTReshape]
    | cons row vs ih =>
      intro ts h hM
      cases ts with
      | nil => simp at h
      | cons t ts =>
        obtain ⟨i1, i2⟩ := ih ts (by simpa using h) (fun r hr => hM r (by simp [hr]))
        have hr : row.length = M := hM row (by simp)
        rw [tileTReshape_cons, List.map_append, List.map_cons, List.flatten_cons]
        constructor
        · simp only [List.length_append, i1]; simp [hr]
        · rw [List.zipWith_append (by simp [hr]), i2, List.zipWith_cons_cons, List.flatten_cons]
          congr 1
          rw [← hr]
          clear i1 i2 hr hM h
          induction row with
          | nil => simp
          | cons v row ih =>
            simp only [List.map_replicate] at ih
            simp [List.replicate_succ, ih, hg]
  obtain ⟨h1, h2⟩ := hflat vs ts h hM
  simp only [Motion.call3, Motion.rotatorBatch, h1, if_true]
  show Except.ok _ = _
  rw [h2, reshape_flatten]
  · congr 1
    rw [List.map_zipWith]
    clear h1 h2 hflat
    induction vs generalizing ts with
    | nil => simp
    | cons row vs ih =>
      cases ts with
      | nil => simp
      | cons t ts =>
        simp only [List.zipWith_cons_cons]
        rw [ih ts (by simpa using h) (fun r hr => hM r (by simp [hr]))]
        simp [hg, Motion.call1, Function.comp_def]
  · simp [h]
  · intro r hr
    obtain ⟨i, hi, rfl⟩ := List.mem_iff_getElem.mp hr
    rw [List.getElem_zipWith, List.length_map]
    exact hM _ (List.getElem_mem _)

example : ([0, 1] : List ℝ).length = ([[⟨1, 2, 3⟩, ⟨4, 5, 6⟩], [⟨7, 8, 9⟩, ⟨1, 0, 1⟩]] : List (List V3)).length ∧
    ∀ row ∈ ([[⟨1, 2, 3⟩, ⟨4, 5, 6⟩], [⟨7, 8, 9⟩, ⟨1, 0, 1⟩]] : List (List V3)), row.length = 2 := by simp

/-! ### C09 -/

/-- entry `(i, j)` of a two-dimensional array -/
noncomputable def entry (a : List (List ℝ)) (i j : ℕ) : ℝ := (a.getD i []).getD j 0

/-- C09 for the shapes `(3,)` and `(3,N)`: the point is, respectively every column is, shifted by `time*translation`. -/
theorem C09_translate_columns_partial (m : Motion) (t : ℝ) (h0 : 0 ≤ t) (h1 : t ≤ 1) :
    (∀ x y z : ℝ, m.translate (.d1 [x, y, z]) t =
      .ok (.d1 [x + t * m.translation.x, y + t * m.translation.y, z + t * m.translation.z])) ∧
    (∀ xs ys zs : List ℝ, m.translate (.d2 [xs, ys, zs]) t =
      .ok (.d2 [xs.map (· + t * m.translation.x), ys.map (· + t * m.translation.y), zs.map (· + t * m.translation.z)])) := by
  constructor
  · intro x y z; simp [Motion.translate, h0, h1, mul_comm]
  · intro xs ys zs; simp [Motion.translate, h0, h1, mul_comm]

/-- C09: for `N` points given as rows, `N ≠ 1, 3`, the call raises instead of translating. -/
theorem C09_translate_rows_raises (m : Motion) (rows : List (List ℝ)) (t : ℝ) (h0 : 0 ≤ t) (h1 : t ≤ 1)
    (h3 : rows.length ≠ 3) (h4 : rows.length ≠ 1) : m.translate (.d2 rows) t = .error .runtimeError := by
  simp [Motion.translate, h0, h1, h3, h4]

/-- C09: times outside `[0,1]` are rejected for every input. -/
theorem C09_translate_time_checked (m : Motion) (v : Tens) (t : ℝ) (h : ¬ (0 ≤ t ∧ t ≤ 1)) :
    m.translate v t = .error .assertion := by
  have : ¬ (t ≤ 1 ∧ t ≥ 0) := fun hh => h ⟨hh.2, hh.1⟩
  simp [Motion.translate, this]

/-- C09 fails as stated: three points given in the documented `(N,3)` shape are silently shifted by wrong vectors
(row `i` gets `t*T_i` added to all three of its coordinates). -/
theorem C09_translate_rows_fails :
    ∃ (m : Motion) (t : ℝ) (rows out : List (List ℝ)), 0 ≤ t ∧ t ≤ 1 ∧ rows.length = 3 ∧ (∀ r ∈ rows, r.length = 3) ∧
      m.translate (.d2 rows) t = .ok (.d2 out) ∧
      entry out 0 1 ≠ entry rows 0 1 + t * m.translation.y := by
  refine ⟨demoMotion, 1, [[0,0,0],[0,0,0],[0,0,0]], [[1,1,1],[2,2,2],[3,3,3]], by norm_num, le_rfl, rfl, ?_, ?_, ?_⟩
  · simp
  · simp [Motion.translate, demoMotion]
  · simp [entry, demoMotion]

end XRD
