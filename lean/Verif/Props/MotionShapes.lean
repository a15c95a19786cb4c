import Verif.Model.MotionShapes
import Verif.Props.Motion

/-! Property C108: motions on arrays of points in the documented shapes. -/

namespace XRD.Spec
open XRD V3

/-- the `(N,3)` array whose rows are the given points -/
def asRows (ps : List V3) : Arr := .d2 3 (ps.map fun p => [p.x, p.y, p.z])

/-- the `(3,N)` array whose columns are the given points -/
def asColumns (ps : List V3) : Arr := .d2 ps.length [ps.map (·.x), ps.map (·.y), ps.map (·.z)]

/-- where the motion takes the point `p` at time `t`: rotation about the origin of the motion, then translation -/
noncomputable def movedTo (m : Motion) (p : V3) (t : ℝ) : V3 :=
  m.origin + (rotMat m.axis (m.angle * t)).mulVec (p - m.origin) + t • m.translation

/-- the direction `p` turned to time `t` -/
noncomputable def turnedTo (m : Motion) (p : V3) (t : ℝ) : V3 := (rotMat m.axis (m.angle * t)).mulVec p
end XRD.Spec

namespace XRD
open V3 M3 Spec

/-- for a unit axis `movedTo` and `turnedTo` are the textbook motion and rotation (`Spec.move`, `Spec.rotate`) -/
theorem C108_textbook (m : Motion) (ha : norm m.axis = 1) (p : V3) (t : ℝ) :
    movedTo m p t = Spec.move m.axis m.angle m.translation m.origin t p ∧ turnedTo m p t = Spec.rotate m.axis (t * m.angle) p := by
  unfold movedTo turnedTo Spec.move
  rw [rotMat_eq_spec (norm_eq_one.mp ha), rotMat_eq_spec (norm_eq_one.mp ha), _root_.mul_comm t]
  exact ⟨rfl, rfl⟩

theorem rowV_vRow (v : V3) : rowV (vRow v) = v := rfl

theorem subOrigin_vRow (o p : V3) : subOrigin o [p.x, p.y, p.z] = vRow (p - o) := by
  simp [subOrigin, broadRow, rowV, vRow]

theorem finish_moved (m : Motion) (p : V3) (t : ℝ) :
    m.finishRow (vRow ((rotMat m.axis (m.angle * t)).mulVec (rowV (vRow (p - m.origin))))) t =
      [(movedTo m p t).x, (movedTo m p t).y, (movedTo m p t).z] := by
  unfold Motion.finishRow movedTo
  rw [rowV_vRow, rowV_vRow, _root_.add_comm m.origin]
  rfl

theorem rotatorScalar_rows (axis : V3) (rows : List (List ℝ)) (θ : ℝ) :
    ∃ a, rotatorScalar axis 3 rows θ = .ok a ∧
      a.rowList = rows.map fun r => vRow ((rotMat axis θ).mulVec (rowV r)) := by
  unfold rotatorScalar
  rw [if_pos rfl]
  match rows with
  | [] => exact ⟨_, rfl, rfl⟩
  | [r] => exact ⟨_, rfl, rfl⟩
  | r :: r' :: rs => exact ⟨_, rfl, rfl⟩

/-- C108, a single point of shape `(3,)`: the moved point, of shape `(3,)`. -/
theorem C108_point (m : Motion) (p : V3) (t : ℝ) :
    m.callArr (.d1 [p.x, p.y, p.z]) (.scalar t) = .ok (.d1 [(movedTo m p t).x, (movedTo m p t).y, (movedTo m p t).z]) ∧
    m.rotateArr (.d1 [p.x, p.y, p.z]) (.scalar t) = .ok (.d1 [(turnedTo m p t).x, (turnedTo m p t).y, (turnedTo m p t).z]) := by
  constructor
  · unfold Motion.callArr
    dsimp only
    rw [if_pos (Or.inl (show [p.x, p.y, p.z].length = 3 from rfl)), subOrigin_vRow]
    have : m.rotator (.d1 (vRow (p - m.origin))) (.scalar t) =
        .ok (.d1 (vRow ((rotMat m.axis (m.angle * t)).mulVec (rowV (vRow (p - m.origin)))))) := rfl
    rw [this]
    show Except.ok (Arr.d1 (m.finishRow _ t)) = _
    rw [← finish_moved]
    rfl
  · rfl

/-- C108, points as rows `(N,3)`, one common time: every row is the moved point and the shape is kept, for every `N`. -/
theorem C108_rows (m : Motion) (ps : List V3) (t : ℝ) :
    m.callArr (asRows ps) (.scalar t) = .ok (asRows (ps.map fun p => movedTo m p t)) := by
  unfold Motion.callArr asRows
  dsimp only
  rw [if_pos (Or.inl rfl)]
  obtain ⟨a, ha, hrows⟩ := rotatorScalar_rows m.axis ((ps.map fun p => [p.x, p.y, p.z]).map (subOrigin m.origin)) (m.angle * t)
  have : m.rotator (.d2 3 ((ps.map fun p => [p.x, p.y, p.z]).map (subOrigin m.origin))) (.scalar t) = .ok a := ha
  rw [this]
  dsimp only
  rw [hrows]
  simp only [List.map_map]
  congr 2
  apply List.map_congr_left
  intro p _
  simp only [Function.comp, subOrigin_vRow]
  exact finish_moved m p t

theorem zip_moved (m : Motion) : ∀ (ps : List V3) (ts : List ℝ),
    List.zipWith m.finishRow (List.zipWith (fun θ r => vRow ((rotMat m.axis θ).mulVec (rowV r))) (ts.map (m.angle * ·))
      ((ps.map fun p => [p.x, p.y, p.z]).map (subOrigin m.origin))) ts =
    (List.zipWith (fun p t => movedTo m p t) ps ts).map fun p => [p.x, p.y, p.z] := by
  intro ps
  induction ps with
  | nil => intro ts; cases ts <;> simp
  | cons p ps ih =>
    intro ts
    cases ts with
    | nil => simp
    | cons t ts =>
      simp only [List.map_cons, List.zipWith_cons_cons]
      rw [ih ts, subOrigin_vRow, finish_moved]

/-- C108, points as rows `(N,3)`, one time per row: row `n` is the point moved to its own time; any other number of times is an error. -/
theorem C108_rows_times (m : Motion) (ps : List V3) (ts : List ℝ) :
    m.callArr (asRows ps) (.vec ts) =
      if ts.length = ps.length then .ok (asRows (List.zipWith (fun p t => movedTo m p t) ps ts)) else .error .runtimeError := by
  unfold Motion.callArr asRows
  dsimp only
  rw [if_pos (Or.inl rfl)]
  by_cases h : ts.length = ps.length
  · have : m.rotator (.d2 3 ((ps.map fun p => [p.x, p.y, p.z]).map (subOrigin m.origin))) (.vec ts) =
        .ok (.d2 3 (List.zipWith (fun θ r => vRow ((rotMat m.axis θ).mulVec (rowV r))) (ts.map (m.angle * ·))
          ((ps.map fun p => [p.x, p.y, p.z]).map (subOrigin m.origin)))) := by
      unfold Motion.rotator rotatorVec
      dsimp only
      rw [if_pos ⟨by simp [h], rfl⟩]
    rw [this, if_pos h]
    dsimp only
    rw [Arr.rowList, zip_moved]
  · have : m.rotator (.d2 3 ((ps.map fun p => [p.x, p.y, p.z]).map (subOrigin m.origin))) (.vec ts) = .error .runtimeError := by
      unfold Motion.rotator rotatorVec
      dsimp only
      rw [if_neg (by rintro ⟨h1, -⟩; simp at h1; exact h h1)]
    rw [this, if_neg h]

/-- C108 for `rotate` on rows with one common time: the rows are the turned directions; the shape `(N,3)` is kept exactly if `N ≠ 1`
(one row comes back with shape `(3,)`). -/
theorem C108_rotate_rows_partial (m : Motion) (ps : List V3) (t : ℝ) :
    m.rotateArr (asRows ps) (.scalar t) = .ok (asRows (ps.map fun p => turnedTo m p t)) ↔ ps.length ≠ 1 := by
  unfold Motion.rotateArr Motion.rotator asRows rotatorScalar
  dsimp only
  rw [if_pos rfl]
  match ps with
  | [] => simp
  | [p] => simp
  | p :: p' :: ps =>
    simp only [List.map_cons, List.length_cons]
    constructor
    · intro _; omega
    · intro _
      simp only [List.map_map]
      rfl

/-- C108 for `rotate` with one time per row: the shape is always kept. -/
theorem C108_rotate_rows_times (m : Motion) (ps : List V3) (ts : List ℝ) (h : ts.length = ps.length) :
    m.rotateArr (asRows ps) (.vec ts) = .ok (asRows (List.zipWith (fun p t => turnedTo m p t) ps ts)) := by
  unfold Motion.rotateArr Motion.rotator asRows rotatorVec
  dsimp only
  rw [if_pos ⟨by simp [h], rfl⟩]
  congr 2
  clear h
  induction ps generalizing ts with
  | nil => cases ts <;> simp
  | cons p ps ih =>
    cases ts with
    | nil => simp
    | cons t ts =>
      simp only [List.map_cons, List.zipWith_cons_cons]
      rw [ih ts]
      rfl

/-- C108: points as columns, the documented shape `(3,N)`: unless `N` is 1 or 3, the call raises, whatever the times, and so does `rotate`
unless `N` is 3. -/
theorem C108_columns_raise (m : Motion) (ps : List V3) (time : Motion.Time) :
    (ps.length ≠ 1 → ps.length ≠ 3 → m.callArr (asColumns ps) time = .error .runtimeError) ∧
    (ps.length ≠ 3 → m.rotateArr (asColumns ps) time = .error .runtimeError) := by
  constructor
  · intro h1 h3
    unfold Motion.callArr asColumns
    dsimp only
    rw [if_neg (by rintro (h | h) <;> contradiction)]
  · intro h3
    unfold Motion.rotateArr Motion.rotator asColumns
    cases time with
    | scalar t => dsimp only; unfold rotatorScalar; rw [if_neg h3]
    | vec ts => dsimp only; unfold rotatorVec; rw [if_neg (fun h => h3 h.2)]

/-- the three columns of three points are read as three other points -/
theorem asColumns_rows (a b c : V3) : asColumns [a, b, c] = asRows [⟨a.x, b.x, c.x⟩, ⟨a.y, b.y, c.y⟩, ⟨a.z, b.z, c.z⟩] := rfl

/-- C108: three points given as columns are moved rightly exactly if the array of the moved columns happens to be the array of the moved rows. -/
theorem C108_columns_partial (m : Motion) (a b c : V3) (t : ℝ) :
    m.callArr (asColumns [a, b, c]) (.scalar t) = .ok (asColumns [movedTo m a t, movedTo m b t, movedTo m c t]) ↔
      movedTo m ⟨a.x, b.x, c.x⟩ t = ⟨(movedTo m a t).x, (movedTo m b t).x, (movedTo m c t).x⟩ ∧
      movedTo m ⟨a.y, b.y, c.y⟩ t = ⟨(movedTo m a t).y, (movedTo m b t).y, (movedTo m c t).y⟩ ∧
      movedTo m ⟨a.z, b.z, c.z⟩ t = ⟨(movedTo m a t).z, (movedTo m b t).z, (movedTo m c t).z⟩ := by
  rw [asColumns_rows, C108_rows, asColumns_rows]
  unfold asRows
  simp only [List.map_cons, List.map_nil, Except.ok.injEq, Arr.d2.injEq, true_and, List.cons.injEq, and_true, V3.ext_iff]

/-- C108 fails as stated: three points given in the documented shape `(3,N)` are silently moved to wrong places, and one point given as a
column comes back as an array of shape `(3,3)`. -/
theorem C108_columns_fails :
    (∃ (m : Motion) (a b c : V3) (t : ℝ), Motion.new m.axis m.angle m.translation m.origin = .ok m ∧ 0 ≤ t ∧ t ≤ 1 ∧
      (∃ out, m.callArr (asColumns [a, b, c]) (.scalar t) = .ok out) ∧
      m.callArr (asColumns [a, b, c]) (.scalar t) ≠ .ok (asColumns [movedTo m a t, movedTo m b t, movedTo m c t])) ∧
    ∀ (m : Motion) (p : V3) (t : ℝ), ∃ r1 r2 r3, m.callArr (asColumns [p]) (.scalar t) = .ok (.d2 3 [r1, r2, r3]) := by
  constructor
  · refine ⟨⟨⟨0, 0, 1⟩, Real.pi / 2, ⟨1, 0, 0⟩, 0⟩, 0, 0, 0, 1, ?_, by norm_num, le_rfl, ?_, ?_⟩
    · unfold Motion.new
      rw [if_pos ⟨by linarith [Real.pi_pos], by show (0 : ℝ) < _; linarith [Real.pi_pos]⟩, if_pos]
      unfold axisAccepted
      rw [norm_ez]; unfold allclose; norm_num
    · rw [asColumns_rows, C108_rows]; exact ⟨_, rfl⟩
    · intro h
      have := ((C108_columns_partial _ _ _ _ _).mp h).1
      have h2 := congrArg V3.y this
      simp [movedTo, rotMat, crossMat, crossMat2, mulVec, V3.dot] at h2
  · intro m p t
    unfold Motion.callArr asColumns
    dsimp only
    rw [if_pos (Or.inr (show [p].length = 1 from rfl))]
    exact ⟨_, _, _, rfl⟩

/-- the model of arrays agrees with the model used elsewhere -/
theorem callArr_call2 (m : Motion) (ps : List V3) (time : Motion.Time) :
    m.callArr (asRows ps) time = (m.call2 ps time).map asRows := by
  have hm : ∀ (p : V3) (t : ℝ), movedTo m p t = m.call1 p t := by
    intro p t
    unfold movedTo Motion.call1
    dsimp only
    rw [_root_.add_comm m.origin]
  cases time with
  | scalar t =>
    rw [C108_rows, C08_batch_scalar_time]
    simp only [hm]
    rfl
  | vec ts =>
    rw [C108_rows_times]
    by_cases h : ts.length = ps.length
    · rw [if_pos h, C08_batch_per_row_times m ps ts h]
      simp only [hm]
      rfl
    · rw [if_neg h, C08_batch_length_mismatch m ps ts h]
      rfl

/-- C108 is not vacuous: two points as rows. -/
example : demoMotion.callArr (asRows [⟨1, 2, 3⟩, ⟨4, 5, 6⟩]) (.scalar 0) = .ok (asRows [⟨1, 2, 3⟩, ⟨4, 5, 6⟩]) := by
  rw [C108_rows]
  congr 2
  simp [movedTo, rotMat, mulVec, V3.dot, V3.ext_iff]

end XRD
