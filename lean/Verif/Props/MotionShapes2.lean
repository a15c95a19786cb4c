import Verif.Props.MotionShapes
import Verif.Props.Cylinder2

/-! Property C108, the remaining shapes: one point with a list of times, and arrays of one column.  Property C103: rejected requests. -/

namespace XRD
open V3 M3 Spec

/-- C108, a single point of shape `(3,)` with a list of times: with one time, the point moved to that time, of shape `(3,)` (`rotate`: of
shape `(1,3)`); any other number of times is an error. -/
theorem C108_point_times (m : Motion) (p : V3) (ts : List ℝ) :
    (∀ t, ts = [t] → m.callArr (.d1 [p.x, p.y, p.z]) (.vec ts) = .ok (.d1 [(movedTo m p t).x, (movedTo m p t).y, (movedTo m p t).z]) ∧
      m.rotateArr (.d1 [p.x, p.y, p.z]) (.vec ts) = .ok (asRows [turnedTo m p t])) ∧
    (ts.length ≠ 1 → m.callArr (.d1 [p.x, p.y, p.z]) (.vec ts) = .error .runtimeError ∧
      m.rotateArr (.d1 [p.x, p.y, p.z]) (.vec ts) = .error .runtimeError) := by
  constructor
  · rintro t rfl
    constructor
    · unfold Motion.callArr
      dsimp only
      rw [if_pos (Or.inl (show [p.x, p.y, p.z].length = 3 from rfl)), subOrigin_vRow]
      have : m.rotator (.d1 (vRow (p - m.origin))) (.vec [t]) =
          .ok (.d2 3 [vRow ((rotMat m.axis (m.angle * t)).mulVec (rowV (vRow (p - m.origin))))]) := by
        unfold Motion.rotator rotatorVec
        dsimp only
        rw [if_pos ⟨rfl, rfl⟩]
        rfl
      rw [this]
      exact congrArg (fun r => Except.ok (Arr.d1 r)) (finish_moved m p t)
    · unfold Motion.rotateArr Motion.rotator rotatorVec
      dsimp only
      rw [if_pos ⟨rfl, rfl⟩]
      rfl
  · intro h
    constructor
    · unfold Motion.callArr
      dsimp only
      rw [if_pos (Or.inl (show [p.x, p.y, p.z].length = 3 from rfl))]
      have : m.rotator (.d1 (subOrigin m.origin [p.x, p.y, p.z])) (.vec ts) = .error .runtimeError := by
        unfold Motion.rotator rotatorVec
        dsimp only
        rw [if_neg (by rintro ⟨h', -⟩; simp at h'; exact h h')]
      rw [this]
    · unfold Motion.rotateArr Motion.rotator rotatorVec
      dsimp only
      rw [if_neg (by rintro ⟨h', -⟩; simp at h'; exact h h')]

/-- C108: an array of one column `(N,1)` is not rejected: each of its numbers is taken as the three coordinates of a point.  So a single
point given as a column (the documented shape `(3,N)` with `N = 1`) comes back as three points on the diagonal that were moved. -/
theorem C108_one_column_fails (m : Motion) (xs : List ℝ) (p : V3) (t : ℝ) :
    m.callArr (.d2 1 (xs.map fun v => [v])) (.scalar t) = .ok (asRows (xs.map fun v => movedTo m ⟨v, v, v⟩ t)) ∧
    m.callArr (asColumns [p]) (.scalar t) =
      .ok (asRows [movedTo m ⟨p.x, p.x, p.x⟩ t, movedTo m ⟨p.y, p.y, p.y⟩ t, movedTo m ⟨p.z, p.z, p.z⟩ t]) ∧
    m.callArr (.d1 [p.x]) (.scalar t) = m.callArr (.d1 [p.x, p.x, p.x]) (.scalar t) := by
  have key : ∀ xs : List ℝ, m.callArr (.d2 1 (xs.map fun v => [v])) (.scalar t) = .ok (asRows (xs.map fun v => movedTo m ⟨v, v, v⟩ t)) := by
    intro xs
    rw [show (asRows (xs.map fun v => movedTo m ⟨v, v, v⟩ t)) = asRows ((xs.map fun v => (⟨v, v, v⟩ : V3)).map fun p => movedTo m p t) by
      rw [List.map_map]; rfl, ← C108_rows]
    unfold Motion.callArr asRows
    dsimp only
    rw [if_pos (Or.inr rfl), if_pos (Or.inl rfl), List.map_map, List.map_map, List.map_map]
    have : (xs.map (subOrigin m.origin ∘ fun v => [v])) =
        xs.map (subOrigin m.origin ∘ (fun p : V3 => [p.x, p.y, p.z]) ∘ fun v => (⟨v, v, v⟩ : V3)) := by
      apply List.map_congr_left
      intro v _
      simp [subOrigin, broadRow]
    rw [this]; rfl
  refine ⟨key xs, ?_, ?_⟩
  · have := key [p.x, p.y, p.z]
    exact this
  · unfold Motion.callArr
    dsimp only
    rw [if_pos (Or.inr (show [p.x].length = 1 from rfl)), if_pos (Or.inl (show [p.x, p.x, p.x].length = 3 from rfl))]
    have : subOrigin m.origin [p.x] = subOrigin m.origin [p.x, p.x, p.x] := by simp [subOrigin, broadRow]
    rw [this]

/-- C103: impossible requests are rejected before anything is meshed: no crystals (`ZeroDivisionError`), a negative volume per crystal
(`TypeError`, for instance a negative number of crystals) and a cylinder without volume (`ZeroDivisionError`).  So a sample is only ever
returned for a positive volume per crystal. -/
theorem C103_rejected (xf : Xfab) (mesher : Mesher) (odf : V3 → Quat → ℝ) (count height radius : ℝ) (cell : List ℝ) (sg : String)
    (cif : Option String) (sep : ℝ) (strain : V3 → M3) (draws : ℕ → Draw) :
    (count = 0 → polycrystalFromOdf xf mesher odf count height radius cell sg cif sep strain draws = .error .zeroDivision) ∧
    (radius ≠ 0 → height * count < 0 → polycrystalFromOdf xf mesher odf count height radius cell sg cif sep strain draws = .error .typeError) ∧
    (radius = 0 ∨ height = 0 → polycrystalFromOdf xf mesher odf count height radius cell sg cif sep strain draws = .error .zeroDivision) ∧
    (∀ p, polycrystalFromOdf xf mesher odf count height radius cell sg cif sep strain draws = .ok p → radius ≠ 0 ∧ 0 < height * count) := by
  have hpi := Real.pi_pos
  have c1 : count = 0 → polycrystalFromOdf xf mesher odf count height radius cell sg cif sep strain draws = .error .zeroDivision := by
    intro h; unfold polycrystalFromOdf; rw [if_pos h]
  have c2 : radius ≠ 0 → height * count < 0 →
      polycrystalFromOdf xf mesher odf count height radius cell sg cif sep strain draws = .error .typeError := by
    intro hr h
    have hc : count ≠ 0 := by rintro rfl; simp at h
    unfold polycrystalFromOdf
    rw [if_neg hc, if_pos]
    have e : Real.pi * radius ^ 2 * height / count = Real.pi * radius ^ 2 / count ^ 2 * (height * count) := by field_simp
    rw [e]
    exact mul_neg_of_pos_of_neg (by positivity) h
  have c3 : radius = 0 ∨ height = 0 → polycrystalFromOdf xf mesher odf count height radius cell sg cif sep strain draws = .error .zeroDivision := by
    intro h
    by_cases hc : count = 0
    · exact c1 hc
    have e : Real.pi * radius ^ 2 * height / count = 0 := by rcases h with rfl | rfl <;> simp
    unfold polycrystalFromOdf
    rw [if_neg hc, if_neg (by rw [e]; exact lt_irrefl 0), if_pos e]
  refine ⟨c1, c2, c3, ?_⟩
  intro p hp
  have hc : count ≠ 0 := by intro h; rw [c1 h] at hp; cases hp
  have hr : radius ≠ 0 := by intro h; rw [c3 (.inl h)] at hp; cases hp
  have hh : height ≠ 0 := by intro h; rw [c3 (.inr h)] at hp; cases hp
  refine ⟨hr, ?_⟩
  rcases lt_trichotomy (height * count) 0 with h | h | h
  · rw [c2 hr h] at hp; cases hp
  · exact absurd h (mul_ne_zero hh hc)
  · exact h

end XRD
