import Verif.Model.BeamHull
import Verif.Props.Intersect
import Verif.Props.BeamSize
import Verif.Props.Inside

/-! Property C87: which points a beam contains. -/

namespace XRD.Spec
open XRD V3
/-- the points of the list are the eight corners of the box `[x0, x1] × [y0, y1] × [z0, z1]`, in any order -/
def BoxCorners (vs : List V3) (x0 x1 y0 y1 z0 z1 : ℝ) : Prop :=
  ∀ v : V3, v ∈ vs ↔ (v.x = x0 ∨ v.x = x1) ∧ (v.y = y0 ∨ v.y = y1) ∧ (v.z = z0 ∨ v.z = z1)
/-- `y` is `x` rounded to six decimals: the multiple of a millionth nearest to `x`, and the even one of two equally near -/
def SixDecimals (x y : ℝ) : Prop :=
  ∃ k : ℤ, y = k / 10 ^ 6 ∧ (|y - x| < 1 / (2 * 10 ^ 6) ∨ |y - x| = 1 / (2 * 10 ^ 6) ∧ Even k)
/-- the closed ball of radius `r` around `p` is in the convex hull of the points -/
def BallIn (vs : List V3) (p : V3) (r : ℝ) : Prop := ∀ q : V3, dist q p ≤ r → q ∈ convexHull ℝ {v | v ∈ vs}
/-- precision of the rounded half-spaces at the point: a millionth of `|x| + |y| + |z| + 1` -/
noncomputable def blur (p : V3) : ℝ := (|p.x| + |p.y| + |p.z| + 1) / 10 ^ 6
end XRD.Spec

namespace XRD
open V3 M3 Fl Spec
open scoped Classical

theorem beamQhull_contains {count : List V3 → ℕ} {hull : List V3 → Hull} {vs : List V3} {dir : V3} {wl : ℝ} {pol : V3} {b : Beam}
    (h : Beam.new (beamQhull count hull) vs dir wl pol = .ok b) (p : V3) :
    b.contains p ↔ ∀ e ∈ (hull vs).equations, e.round6.n.dot p + e.round6.d < 0 := by
  unfold Beam.new at h
  dsimp only at h
  split_ifs at h
  obtain rfl := Except.ok.inj h
  unfold Beam.contains beamQhull
  simp only [mem_uniqueRows, List.mem_map, forall_exists_index, and_imp, forall_apply_eq_imp_iff₂]

/-! ### Any beam -/

/-- **C87.** Whatever the shape of the beam: a point with a ball of radius a millionth of `|x| + |y| + |z| + 1` around it inside the
convex hull of the vertices is contained in the beam. -/
theorem C87_contains_deep (count : List V3 → ℕ) (hull : List V3 → Hull) (vs : List V3) (dir : V3) (wl : ℝ) (pol : V3) (b : Beam)
    (h : Beam.new (beamQhull count hull) vs dir wl pol = .ok b) (hH : IsHull (hull vs) vs) (p : V3) (hp : BallIn vs p (blur p)) :
    b.contains p := by
  rw [beamQhull_contains h]
  intro e he
  have hr : 0 < blur p := by unfold blur; positivity
  have h1 := (hH.faces (p + blur p • e.n)).2 (hp _ (by
    have : p + blur p • e.n - p = blur p • e.n := by ext <;> simp
    unfold V3.dist
    rw [this, V3.norm_smul, hH.unit e he, abs_of_pos hr, _root_.mul_one])) e he
  have hn : e.n.dot e.n = 1 := by
    have := hH.unit e he
    rw [V3.norm_eq_one] at this
    exact this
  have e1 : e.n.dot (p + blur p • e.n) = e.n.dot p + blur p * e.n.dot e.n := by simp only [V3.dot, add_x, add_y, add_z, smul_x, smul_y, smul_z]; ring
  rw [e1, hn] at h1
  have := (abs_le.1 (round6_halfspace e p)).2
  have e2 : (|p.x| + |p.y| + |p.z| + 1) / (2 * 10 ^ 6) = blur p / 2 := by unfold blur; ring
  rw [e2] at this
  linarith

/-- **C87.** Whatever the shape of the beam: a point contained in it can be moved into the convex hull of the vertices by a small step
towards any point `c` well inside: if a ball of radius `ρ` around `c` is in the hull, the step is at most `blur p / (2 ρ)` times the
distance from `c`. -/
theorem C87_contains_near (count : List V3 → ℕ) (hull : List V3 → Hull) (vs : List V3) (dir : V3) (wl : ℝ) (pol : V3) (b : Beam)
    (h : Beam.new (beamQhull count hull) vs dir wl pol = .ok b) (hH : IsHull (hull vs) vs) (p : V3) (hp : b.contains p)
    (c : V3) (ρ : ℝ) (hρ : 0 < ρ) (hc : BallIn vs c ρ) :
    ∃ q ∈ convexHull ℝ {v | v ∈ vs}, dist q p ≤ blur p / (2 * ρ) * dist c p := by
  rw [beamQhull_contains h] at hp
  have hr : 0 < blur p := by unfold blur; positivity
  obtain ⟨t, ht⟩ : ∃ t, t = (blur p / 2) / (blur p / 2 + ρ) := ⟨_, rfl⟩
  have ht0 : 0 ≤ t := by rw [ht]; positivity
  have ht1 : t ≤ blur p / (2 * ρ) := by
    rw [ht, div_le_div_iff₀ (by positivity) (by positivity)]; nlinarith [sq_nonneg (blur p)]
  have htle : t ≤ 1 := by rw [ht, div_le_one (by positivity)]; linarith
  refine ⟨p + t • (c - p), ?_, ?_⟩
  · rw [← hH.faces]
    intro e he
    have h1 := (hH.faces (c + ρ • e.n)).2 (hc _ (by
      have : c + ρ • e.n - c = ρ • e.n := by ext <;> simp
      unfold V3.dist
      rw [this, V3.norm_smul, hH.unit e he, abs_of_pos hρ, _root_.mul_one])) e he
    have hn : e.n.dot e.n = 1 := by
      have := hH.unit e he
      rw [V3.norm_eq_one] at this
      exact this
    have e1 : e.n.dot (c + ρ • e.n) = e.n.dot c + ρ * e.n.dot e.n := by simp only [V3.dot, add_x, add_y, add_z, smul_x, smul_y, smul_z]; ring
    rw [e1, hn] at h1
    have h2 := hp e he
    have h3 := (abs_le.1 (round6_halfspace e p)).1
    have e2 : (|p.x| + |p.y| + |p.z| + 1) / (2 * 10 ^ 6) = blur p / 2 := by unfold blur; ring
    rw [e2] at h3
    have h4 : e.n.dot p + e.d ≤ blur p / 2 := by linarith
    have e3 : e.n.dot (p + t • (c - p)) + e.d = (1 - t) * (e.n.dot p + e.d) + t * (e.n.dot c + e.d) := by
      simp only [V3.dot, add_x, add_y, add_z, smul_x, smul_y, smul_z, sub_x, sub_y, sub_z]; ring
    rw [e3]
    have h5 : (1 - t) * (e.n.dot p + e.d) ≤ (1 - t) * (blur p / 2) := mul_le_mul_of_nonneg_left h4 (by linarith)
    have h6 : t * (e.n.dot c + e.d) ≤ t * (-ρ) := mul_le_mul_of_nonneg_left (by linarith) ht0
    have h7 : (1 - t) * (blur p / 2) + t * (-ρ) = 0 := by rw [ht]; field_simp; ring
    linarith
  · have : p + t • (c - p) - p = t • (c - p) := by ext <;> simp
    unfold V3.dist
    rw [this, V3.norm_smul, abs_of_nonneg ht0]
    exact mul_le_mul_of_nonneg_right ht1 (norm_nonneg _)

/-! ### Boxes -/

theorem roundEven_neg (x : ℝ) : roundEven (-x) = -roundEven x := by
  unfold roundEven
  by_cases hi : (⌊x⌋ : ℝ) = x
  · have : ⌊-x⌋ = -⌊x⌋ := by
      rw [← hi]; rw [← Int.cast_neg, Int.floor_intCast, Int.floor_intCast]
    rw [this]
    have e1 : x - (⌊x⌋ : ℝ) = 0 := by rw [hi]; ring
    have e2 : -x - ((-⌊x⌋ : ℤ) : ℝ) = 0 := by push_cast; rw [hi]; ring
    rw [e1, e2]; norm_num
  · have hf1 := Int.floor_le x
    have hf2 := Int.lt_floor_add_one x
    have hlt : (⌊x⌋ : ℝ) < x := lt_of_le_of_ne hf1 hi
    have : ⌊-x⌋ = -⌊x⌋ - 1 := by
      rw [Int.floor_eq_iff]; push_cast; constructor <;> linarith
    rw [this]
    have e2 : -x - ((-⌊x⌋ - 1 : ℤ) : ℝ) = 1 - (x - ⌊x⌋) := by push_cast; ring
    rw [e2]
    split_ifs <;> first | omega | (exfalso; linarith) | (rw [Int.even_sub, Int.even_neg] at *; simp_all) | skip

theorem round6_neg (x : ℝ) : round6 (-x) = -round6 x := by
  unfold round6
  rw [neg_mul, roundEven_neg]; push_cast; ring

theorem roundEven_int (k : ℤ) : roundEven (k : ℝ) = k := by
  unfold roundEven
  rw [Int.floor_intCast, sub_self]; norm_num

theorem round6_mul (k : ℤ) : round6 (k / 10 ^ 6) = k / 10 ^ 6 := by
  unfold round6
  rw [div_mul_cancel₀ _ (by norm_num), roundEven_int]

theorem round6_zero : round6 0 = 0 := by simpa using round6_mul 0
theorem round6_one : round6 1 = 1 := by
  have := round6_mul (10 ^ 6)
  norm_num at this
  exact this

theorem sixDecimals_round6 (x : ℝ) : SixDecimals x (round6 x) := by
  refine ⟨roundEven (x * 10 ^ 6), rfl, ?_⟩
  have key : |(roundEven (x * 10 ^ 6) : ℝ) - x * 10 ^ 6| < 1 / 2 ∨ |(roundEven (x * 10 ^ 6) : ℝ) - x * 10 ^ 6| = 1 / 2 ∧ Even (roundEven (x * 10 ^ 6)) := by
    generalize x * 10 ^ 6 = y
    have hf1 := Int.floor_le y
    have hf2 := Int.lt_floor_add_one y
    unfold roundEven
    split_ifs with h1 h2 h3
    · left; rw [abs_lt]; constructor <;> linarith
    · left; push_cast; rw [abs_lt]; constructor <;> linarith
    · right; refine ⟨?_, even_iff_two_dvd.2 h3⟩
      have : y - ⌊y⌋ = 1 / 2 := le_antisymm (not_lt.1 h2) (not_lt.1 h1)
      rw [show (⌊y⌋ : ℝ) - y = -(1 / 2) by linarith, abs_neg]; norm_num
    · right
      have : y - ⌊y⌋ = 1 / 2 := le_antisymm (not_lt.1 h2) (not_lt.1 h1)
      refine ⟨?_, ?_⟩
      · push_cast; rw [show (⌊y⌋ : ℝ) + 1 - y = 1 / 2 by linarith]; norm_num
      · rw [Int.even_add_one, even_iff_two_dvd]; exact h3
  have e : round6 x - x = ((roundEven (x * 10 ^ 6) : ℝ) - x * 10 ^ 6) / 10 ^ 6 := by unfold round6; ring
  rw [e, abs_div, abs_of_pos (show (0:ℝ) < 10 ^ 6 by norm_num)]
  rcases key with h | ⟨h, h'⟩
  · left; rw [div_lt_div_iff₀ (by norm_num) (by norm_num)]; generalize |(roundEven (x * 10 ^ 6) : ℝ) - x * 10 ^ 6| = w at *; norm_num; linarith
  · right; refine ⟨?_, h'⟩
    rw [h]; norm_num

theorem sixDecimals_unique {x y z : ℝ} (h1 : SixDecimals x y) (h2 : SixDecimals x z) : y = z := by
  obtain ⟨k, rfl, hk⟩ := h1
  obtain ⟨l, rfl, hl⟩ := h2
  have a1 : |(k : ℝ) / 10 ^ 6 - x| ≤ 1 / (2 * 10 ^ 6) := by rcases hk with h | h; exacts [h.le, h.1.le]
  have a2 : |(l : ℝ) / 10 ^ 6 - x| ≤ 1 / (2 * 10 ^ 6) := by rcases hl with h | h; exacts [h.le, h.1.le]
  rw [abs_le] at a1 a2
  have d1 : (k : ℝ) - l ≤ 1 := by linarith
  have d2 : (l : ℝ) - k ≤ 1 := by linarith
  have d1' : k - l ≤ 1 := by exact_mod_cast d1
  have d2' : l - k ≤ 1 := by exact_mod_cast d2
  rcases (by omega : k = l ∨ k = l + 1 ∨ l = k + 1) with rfl | rfl | rfl
  · rfl
  · exfalso
    push_cast at *
    have b1 : |((l : ℝ) + 1) / 10 ^ 6 - x| = 1 / (2 * 10 ^ 6) := by rw [abs_of_nonneg (by linarith)]; linarith
    have b2 : |(l : ℝ) / 10 ^ 6 - x| = 1 / (2 * 10 ^ 6) := by rw [abs_of_nonpos (by linarith)]; linarith
    rw [b1] at hk; rw [b2] at hl
    have c1 := (hk.resolve_left (lt_irrefl _)).2
    have c2 := (hl.resolve_left (lt_irrefl _)).2
    rw [Int.even_add_one] at c1
    exact c1 c2
  · exfalso
    push_cast at *
    have b1 : |((k : ℝ) + 1) / 10 ^ 6 - x| = 1 / (2 * 10 ^ 6) := by rw [abs_of_nonneg (by linarith)]; linarith
    have b2 : |(k : ℝ) / 10 ^ 6 - x| = 1 / (2 * 10 ^ 6) := by rw [abs_of_nonpos (by linarith)]; linarith
    rw [b2] at hk; rw [b1] at hl
    have c1 := (hk.resolve_left (lt_irrefl _)).2
    have c2 := (hl.resolve_left (lt_irrefl _)).2
    rw [Int.even_add_one] at c2
    exact c2 c1

section Box
variable {vs : List V3} {x0 x1 y0 y1 z0 z1 : ℝ}

/-- the six facets of the box -/
def boxFacets (x0 x1 y0 y1 z0 z1 : ℝ) : List HalfSpace :=
  [⟨⟨1, 0, 0⟩, -x1⟩, ⟨⟨-1, 0, 0⟩, x0⟩, ⟨⟨0, 1, 0⟩, -y1⟩, ⟨⟨0, -1, 0⟩, y0⟩, ⟨⟨0, 0, 1⟩, -z1⟩, ⟨⟨0, 0, -1⟩, z0⟩]

theorem box_hull (hb : BoxCorners vs x0 x1 y0 y1 z0 z1) (hx : x0 < x1) (hy : y0 < y1) (hz : z0 < z1) (p : V3) :
    p ∈ convexHull ℝ {v | v ∈ vs} ↔ (x0 ≤ p.x ∧ p.x ≤ x1) ∧ (y0 ≤ p.y ∧ p.y ≤ y1) ∧ (z0 ≤ p.z ∧ p.z ≤ z1) := by
  have hc := convex_convexHull ℝ {v : V3 | v ∈ vs}
  constructor
  · intro h
    have hcv : Convex ℝ {p : V3 | (x0 ≤ p.x ∧ p.x ≤ x1) ∧ (y0 ≤ p.y ∧ p.y ≤ y1) ∧ (z0 ≤ p.z ∧ p.z ≤ z1)} := by
      intro p hp q hq s t hs ht hst
      simp only [Set.mem_setOf_eq, add_x, add_y, add_z, smul_x, smul_y, smul_z] at hp hq ⊢
      obtain rfl : t = 1 - s := by linarith
      refine ⟨⟨?_, ?_⟩, ⟨?_, ?_⟩, ?_, ?_⟩ <;> nlinarith
    refine convexHull_min ?_ hcv h
    intro v hv
    have := (hb v).1 hv
    obtain ⟨h1 | h1, h2 | h2, h3 | h3⟩ := this <;> simp only [Set.mem_setOf_eq, h1, h2, h3] <;>
      refine ⟨⟨?_, ?_⟩, ⟨?_, ?_⟩, ?_, ?_⟩ <;> linarith
  · rintro ⟨⟨a1, a2⟩, ⟨b1, b2⟩, c1, c2⟩
    have corner : ∀ x y z : ℝ, (x = x0 ∨ x = x1) → (y = y0 ∨ y = y1) → (z = z0 ∨ z = z1) → (⟨x, y, z⟩ : V3) ∈ convexHull ℝ {v | v ∈ vs} :=
      fun x y z h1 h2 h3 => subset_convexHull ℝ _ ((hb _).2 ⟨h1, h2, h3⟩)
    have frac : ∀ {u u0 u1 : ℝ}, u0 < u1 → u0 ≤ u → u ≤ u1 → ∃ s t : ℝ, 0 ≤ s ∧ 0 ≤ t ∧ s + t = 1 ∧ s * u0 + t * u1 = u := by
      intro u u0 u1 h h0 h1
      have : 0 < u1 - u0 := by linarith
      refine ⟨(u1 - u) / (u1 - u0), (u - u0) / (u1 - u0), div_nonneg (by linarith) this.le, div_nonneg (by linarith) this.le, ?_, ?_⟩ <;>
        field_simp <;> ring
    obtain ⟨s1, t1, p1, q1, r1, e1⟩ := frac hx a1 a2
    obtain ⟨s2, t2, p2, q2, r2, e2⟩ := frac hy b1 b2
    obtain ⟨s3, t3, p3, q3, r3, e3⟩ := frac hz c1 c2
    have edge : ∀ x y : ℝ, (x = x0 ∨ x = x1) → (y = y0 ∨ y = y1) → (⟨x, y, p.z⟩ : V3) ∈ convexHull ℝ {v | v ∈ vs} := by
      intro x y h1 h2
      have := hc (corner x y z0 h1 h2 (.inl rfl)) (corner x y z1 h1 h2 (.inr rfl)) p3 q3 r3
      have e : s3 • (⟨x, y, z0⟩ : V3) + t3 • (⟨x, y, z1⟩ : V3) = ⟨x, y, p.z⟩ := by
        ext <;> simp <;> first | linarith | (rw [← add_mul]; simp [r1, r2, r3])
      rwa [e] at this
    have side : ∀ x : ℝ, (x = x0 ∨ x = x1) → (⟨x, p.y, p.z⟩ : V3) ∈ convexHull ℝ {v | v ∈ vs} := by
      intro x h1
      have := hc (edge x y0 h1 (.inl rfl)) (edge x y1 h1 (.inr rfl)) p2 q2 r2
      have e : s2 • (⟨x, y0, p.z⟩ : V3) + t2 • (⟨x, y1, p.z⟩ : V3) = ⟨x, p.y, p.z⟩ := by
        ext <;> simp <;> first | linarith | (rw [← add_mul]; simp [r1, r2, r3])
      rwa [e] at this
    have := hc (side x0 (.inl rfl)) (side x1 (.inr rfl)) p1 q1 r1
    have e : s1 • (⟨x0, p.y, p.z⟩ : V3) + t1 • (⟨x1, p.y, p.z⟩ : V3) = p := by
      ext <;> simp <;> first | linarith | (rw [← add_mul]; simp [r1, r2, r3])
    rwa [e] at this

/-- a supporting plane through three corners of the box that are not on a line is one of the six sides -/
theorem box_facet (hb : BoxCorners vs x0 x1 y0 y1 z0 z1) (hx : x0 < x1) (hy : y0 < y1) (hz : z0 < z1) (e : HalfSpace)
    (hu : norm e.n = 1) (hle : ∀ v ∈ vs, e.n.dot v + e.d ≤ 0)
    (hf : ∃ a ∈ vs, ∃ b ∈ vs, ∃ c ∈ vs, cross (b - a) (c - a) ≠ 0 ∧
      e.n.dot a + e.d = 0 ∧ e.n.dot b + e.d = 0 ∧ e.n.dot c + e.d = 0) : e ∈ boxFacets x0 x1 y0 y1 z0 z1 := by
  obtain ⟨⟨a, b, c⟩, d⟩ := e
  dsimp only at *
  have hu' : a * a + b * b + c * c = 1 := by
    rw [V3.norm_eq_one] at hu; simpa [nsq, V3.dot] using hu
  have hle' : ∀ v : V3, (v.x = x0 ∨ v.x = x1) ∧ (v.y = y0 ∨ v.y = y1) ∧ (v.z = z0 ∨ v.z = z1) → a * v.x + b * v.y + c * v.z + d ≤ 0 := by
    intro v hv; simpa [V3.dot] using hle v ((hb v).2 hv)
  have same_x : ∀ p q : V3, p ∈ vs → q ∈ vs → a * p.x + b * p.y + c * p.z + d = 0 → a * q.x + b * q.y + c * q.z + d = 0 → a ≠ 0 → p.x = q.x := by
    intro p q hp hq h1 h2 ha
    obtain ⟨px, py, pz⟩ := (hb p).1 hp
    obtain ⟨qx, qy, qz⟩ := (hb q).1 hq
    have l1 := hle' ⟨q.x, p.y, p.z⟩ ⟨qx, py, pz⟩
    have l2 := hle' ⟨p.x, q.y, q.z⟩ ⟨px, qy, qz⟩
    dsimp only at l1 l2
    have : a * (q.x - p.x) = 0 := by nlinarith
    rcases mul_eq_zero.1 this with h | h
    · exact absurd h ha
    · linarith
  have same_y : ∀ p q : V3, p ∈ vs → q ∈ vs → a * p.x + b * p.y + c * p.z + d = 0 → a * q.x + b * q.y + c * q.z + d = 0 → b ≠ 0 → p.y = q.y := by
    intro p q hp hq h1 h2 ha
    obtain ⟨px, py, pz⟩ := (hb p).1 hp
    obtain ⟨qx, qy, qz⟩ := (hb q).1 hq
    have l1 := hle' ⟨p.x, q.y, p.z⟩ ⟨px, qy, pz⟩
    have l2 := hle' ⟨q.x, p.y, q.z⟩ ⟨qx, py, qz⟩
    dsimp only at l1 l2
    have : b * (q.y - p.y) = 0 := by nlinarith
    rcases mul_eq_zero.1 this with h | h
    · exact absurd h ha
    · linarith
  have same_z : ∀ p q : V3, p ∈ vs → q ∈ vs → a * p.x + b * p.y + c * p.z + d = 0 → a * q.x + b * q.y + c * q.z + d = 0 → c ≠ 0 → p.z = q.z := by
    intro p q hp hq h1 h2 ha
    obtain ⟨px, py, pz⟩ := (hb p).1 hp
    obtain ⟨qx, qy, qz⟩ := (hb q).1 hq
    have l1 := hle' ⟨p.x, p.y, q.z⟩ ⟨px, py, qz⟩
    have l2 := hle' ⟨q.x, q.y, p.z⟩ ⟨qx, qy, pz⟩
    dsimp only at l1 l2
    have : c * (q.z - p.z) = 0 := by nlinarith
    rcases mul_eq_zero.1 this with h | h
    · exact absurd h ha
    · linarith
  obtain ⟨p, hp, q, hq, r, hr, hne, f1, f2, f3⟩ := hf
  simp only [V3.dot] at f1 f2 f3
  have two : ¬ (a ≠ 0 ∧ b ≠ 0) ∧ ¬ (a ≠ 0 ∧ c ≠ 0) ∧ ¬ (b ≠ 0 ∧ c ≠ 0) := by
    refine ⟨?_, ?_, ?_⟩ <;> rintro ⟨n1, n2⟩ <;> apply hne
    · have := (same_x p q hp hq f1 f2 n1).symm; have := (same_x p r hp hr f1 f3 n1).symm
      have := (same_y p q hp hq f1 f2 n2).symm; have := (same_y p r hp hr f1 f3 n2).symm
      ext <;> simp [V3.cross, *]
    · have := (same_x p q hp hq f1 f2 n1).symm; have := (same_x p r hp hr f1 f3 n1).symm
      have := (same_z p q hp hq f1 f2 n2).symm; have := (same_z p r hp hr f1 f3 n2).symm
      ext <;> simp [V3.cross, *]
    · have := (same_y p q hp hq f1 f2 n1).symm; have := (same_y p r hp hr f1 f3 n1).symm
      have := (same_z p q hp hq f1 f2 n2).symm; have := (same_z p r hp hr f1 f3 n2).symm
      ext <;> simp [V3.cross, *]
  obtain ⟨t1, t2, t3⟩ := two
  obtain ⟨px, py, pz⟩ := (hb p).1 hp
  have l0 := hle' ⟨x0, y0, z0⟩ ⟨.inl rfl, .inl rfl, .inl rfl⟩
  have l1 := hle' ⟨x1, y1, z1⟩ ⟨.inr rfl, .inr rfl, .inr rfl⟩
  dsimp only at l0 l1
  unfold boxFacets
  by_cases ha : a = 0
  · by_cases hb' : b = 0
    · subst ha hb'
      have : c = 1 ∨ c = -1 := by
        have : (c - 1) * (c + 1) = 0 := by linarith
        rcases mul_eq_zero.1 this with h | h
        · left; linarith
        · right; linarith
      rcases this with rfl | rfl
      · have : d = -z1 := by rcases pz with h | h <;> rw [h] at f1 <;> linarith
        subst this; simp
      · have : d = z0 := by rcases pz with h | h <;> rw [h] at f1 <;> linarith
        subst this; simp
    · have hc' : c = 0 := by by_contra hc; exact t3 ⟨hb', hc⟩
      subst ha hc'
      have : b = 1 ∨ b = -1 := by
        have : (b - 1) * (b + 1) = 0 := by linarith
        rcases mul_eq_zero.1 this with h | h
        · left; linarith
        · right; linarith
      rcases this with rfl | rfl
      · have : d = -y1 := by rcases py with h | h <;> rw [h] at f1 <;> linarith
        subst this; simp
      · have : d = y0 := by rcases py with h | h <;> rw [h] at f1 <;> linarith
        subst this; simp
  · have hb' : b = 0 := by by_contra hc; exact t1 ⟨ha, hc⟩
    have hc' : c = 0 := by by_contra hc; exact t2 ⟨ha, hc⟩
    subst hb' hc'
    have : a = 1 ∨ a = -1 := by
      have : (a - 1) * (a + 1) = 0 := by linarith
      rcases mul_eq_zero.1 this with h | h
      · left; linarith
      · right; linarith
    rcases this with rfl | rfl
    · have : d = -x1 := by rcases px with h | h <;> rw [h] at f1 <;> linarith
      subst this; simp
    · have : d = x0 := by rcases px with h | h <;> rw [h] at f1 <;> linarith
      subst this; simp

/-- the facet equations of a hull of a box are the six sides -/
theorem box_equations (hb : BoxCorners vs x0 x1 y0 y1 z0 z1) (hx : x0 < x1) (hy : y0 < y1) (hz : z0 < z1) (H : Hull)
    (hH : IsHull H vs) (hF : Facets H) (e : HalfSpace) : e ∈ H.equations ↔ e ∈ boxFacets x0 x1 y0 y1 z0 z1 := by
  have fwd : ∀ e ∈ H.equations, e ∈ boxFacets x0 x1 y0 y1 z0 z1 := by
    intro e he
    refine box_facet hb hx hy hz e (hH.unit e he) ?_ ?_
    · intro v hv; exact (hH.faces v).2 (subset_convexHull ℝ _ hv) e he
    · have := hF e he; rwa [hH.points] at this
  refine ⟨fwd e, ?_⟩
  intro he
  have key : ∀ q : V3, q ∉ convexHull ℝ {v | v ∈ vs} → (∀ f ∈ boxFacets x0 x1 y0 y1 z0 z1, f ≠ e → f.n.dot q + f.d ≤ 0) → e ∈ H.equations := by
    intro q hq hf
    by_contra hne
    apply hq
    rw [← hH.faces]
    intro f hf'
    exact hf f (fwd f hf') (by rintro rfl; exact hne hf')
  have hmem : ∀ q : V3, q ∉ convexHull ℝ {v | v ∈ vs} ↔ ¬ ((x0 ≤ q.x ∧ q.x ≤ x1) ∧ (y0 ≤ q.y ∧ q.y ≤ y1) ∧ (z0 ≤ q.z ∧ q.z ≤ z1)) := by
    intro q; rw [box_hull hb hx hy hz]
  simp only [boxFacets, List.mem_cons, List.not_mem_nil, or_false] at he
  rcases he with rfl | rfl | rfl | rfl | rfl | rfl
  · refine key ⟨x1 + 1, y0, z0⟩ ((hmem _).2 (by dsimp only; intro h; linarith [h.1.2])) ?_
    simp only [boxFacets, List.mem_cons, List.not_mem_nil, or_false]
    rintro f (rfl | rfl | rfl | rfl | rfl | rfl) hf <;> simp [V3.dot] at hf ⊢ <;> linarith
  · refine key ⟨x0 - 1, y0, z0⟩ ((hmem _).2 (by dsimp only; intro h; linarith [h.1.1])) ?_
    simp only [boxFacets, List.mem_cons, List.not_mem_nil, or_false]
    rintro f (rfl | rfl | rfl | rfl | rfl | rfl) hf <;> simp [V3.dot] at hf ⊢ <;> linarith
  · refine key ⟨x0, y1 + 1, z0⟩ ((hmem _).2 (by dsimp only; intro h; linarith [h.2.1.2])) ?_
    simp only [boxFacets, List.mem_cons, List.not_mem_nil, or_false]
    rintro f (rfl | rfl | rfl | rfl | rfl | rfl) hf <;> simp [V3.dot] at hf ⊢ <;> linarith
  · refine key ⟨x0, y0 - 1, z0⟩ ((hmem _).2 (by dsimp only; intro h; linarith [h.2.1.1])) ?_
    simp only [boxFacets, List.mem_cons, List.not_mem_nil, or_false]
    rintro f (rfl | rfl | rfl | rfl | rfl | rfl) hf <;> simp [V3.dot] at hf ⊢ <;> linarith
  · refine key ⟨x0, y0, z1 + 1⟩ ((hmem _).2 (by dsimp only; intro h; linarith [h.2.2.2])) ?_
    simp only [boxFacets, List.mem_cons, List.not_mem_nil, or_false]
    rintro f (rfl | rfl | rfl | rfl | rfl | rfl) hf <;> simp [V3.dot] at hf ⊢ <;> linarith
  · refine key ⟨x0, y0, z0 - 1⟩ ((hmem _).2 (by dsimp only; intro h; linarith [h.2.2.1])) ?_
    simp only [boxFacets, List.mem_cons, List.not_mem_nil, or_false]
    rintro f (rfl | rfl | rfl | rfl | rfl | rfl) hf <;> simp [V3.dot] at hf ⊢ <;> linarith

/-- **C87.** A beam whose vertices are the corners of a box contains exactly the points strictly between the limits of the box rounded
to six decimals. -/
theorem C87_box (count : List V3 → ℕ) (hull : List V3 → Hull) (vs : List V3) (dir : V3) (wl : ℝ) (pol : V3) (b : Beam)
    (h : Beam.new (beamQhull count hull) vs dir wl pol = .ok b) (hH : IsHull (hull vs) vs) (hF : Facets (hull vs))
    (x0 x1 y0 y1 z0 z1 : ℝ) (hx : x0 < x1) (hy : y0 < y1) (hz : z0 < z1) (hb : BoxCorners vs x0 x1 y0 y1 z0 z1)
    (x0' x1' y0' y1' z0' z1' : ℝ) (ex0 : SixDecimals x0 x0') (ex1 : SixDecimals x1 x1') (ey0 : SixDecimals y0 y0')
    (ey1 : SixDecimals y1 y1') (ez0 : SixDecimals z0 z0') (ez1 : SixDecimals z1 z1') (p : V3) :
    b.contains p ↔ (x0' < p.x ∧ p.x < x1') ∧ (y0' < p.y ∧ p.y < y1') ∧ (z0' < p.z ∧ p.z < z1') := by
  rw [sixDecimals_unique ex0 (sixDecimals_round6 _), sixDecimals_unique ex1 (sixDecimals_round6 _),
    sixDecimals_unique ey0 (sixDecimals_round6 _), sixDecimals_unique ey1 (sixDecimals_round6 _),
    sixDecimals_unique ez0 (sixDecimals_round6 _), sixDecimals_unique ez1 (sixDecimals_round6 _)]
  rw [beamQhull_contains h]
  simp only [box_equations hb hx hy hz _ hH hF, boxFacets, List.forall_mem_cons, HalfSpace.round6, round6_neg, round6_zero, round6_one,
    V3.dot, List.not_mem_nil, IsEmpty.forall_iff, implies_true, and_true]
  constructor
  · rintro ⟨h1, h2, h3, h4, h5, h6⟩
    refine ⟨⟨?_, ?_⟩, ⟨?_, ?_⟩, ?_, ?_⟩ <;> linarith
  · rintro ⟨⟨h2, h1⟩, ⟨h4, h3⟩, h6, h5⟩
    refine ⟨?_, ?_, ?_, ?_, ?_, ?_⟩ <;> linarith

/-! ### The specification can be met -/

/-- corners of a box -/
def boxVerts (x0 x1 y0 y1 z0 z1 : ℝ) : List V3 := [⟨x0, y0, z0⟩, ⟨x0, y0, z1⟩, ⟨x0, y1, z0⟩, ⟨x0, y1, z1⟩, ⟨x1, y0, z0⟩, ⟨x1, y0, z1⟩, ⟨x1, y1, z0⟩, ⟨x1, y1, z1⟩]

theorem boxVerts_corners (x0 x1 y0 y1 z0 z1 : ℝ) : BoxCorners (boxVerts x0 x1 y0 y1 z0 z1) x0 x1 y0 y1 z0 z1 := by
  intro v
  simp only [boxVerts, List.mem_cons, List.not_mem_nil, or_false, V3.ext_iff]
  tauto

/-- hull of a box -/
def boxHull (x0 x1 y0 y1 z0 z1 : ℝ) : Hull :=
  ⟨boxVerts x0 x1 y0 y1 z0 z1, boxFacets x0 x1 y0 y1 z0 z1, (x1 - x0) * (y1 - y0) * (z1 - z0)⟩

theorem boxHull_isHull (hx : x0 < x1) (hy : y0 < y1) (hz : z0 < z1) : IsHull (boxHull x0 x1 y0 y1 z0 z1) (boxVerts x0 x1 y0 y1 z0 z1) := by
  constructor
  · rfl
  · simp only [boxHull, boxFacets, List.forall_mem_cons, List.not_mem_nil, IsEmpty.forall_iff, implies_true, and_true, V3.norm_eq_one]
    norm_num [nsq, V3.dot]
  · intro p
    rw [box_hull (boxVerts_corners _ _ _ _ _ _) hx hy hz]
    simp only [boxHull, boxFacets, List.forall_mem_cons, List.not_mem_nil, IsEmpty.forall_iff, implies_true, and_true, V3.dot]
    constructor
    · rintro ⟨h1, h2, h3, h4, h5, h6⟩
      refine ⟨⟨?_, ?_⟩, ⟨?_, ?_⟩, ?_, ?_⟩ <;> linarith
    · rintro ⟨⟨h2, h1⟩, ⟨h4, h3⟩, h6, h5⟩
      refine ⟨?_, ?_, ?_, ?_, ?_, ?_⟩ <;> linarith
  · simp only [boxHull, boxFacets, List.forall_mem_cons, List.not_mem_nil, IsEmpty.forall_iff, implies_true, and_true]
    refine ⟨⟨⟨x0, y0, z0⟩, by simp [boxVerts], ?_⟩, ⟨⟨x1, y0, z0⟩, by simp [boxVerts], ?_⟩, ⟨⟨x0, y0, z0⟩, by simp [boxVerts], ?_⟩,
      ⟨⟨x0, y1, z0⟩, by simp [boxVerts], ?_⟩, ⟨⟨x0, y0, z0⟩, by simp [boxVerts], ?_⟩, ⟨⟨x0, y0, z1⟩, by simp [boxVerts], ?_⟩⟩ <;>
      simp only [V3.dot] <;> linarith
  · intro a b c d h
    have := congrArg List.length h
    simp [boxVerts] at this

theorem boxHull_facets (hx : x0 < x1) (hy : y0 < y1) (hz : z0 < z1) : Facets (boxHull x0 x1 y0 y1 z0 z1) := by
  have dx : 0 < x1 - x0 := by linarith
  have dy : 0 < y1 - y0 := by linarith
  have dz : 0 < z1 - z0 := by linarith
  unfold Facets
  simp only [boxHull, boxFacets, List.forall_mem_cons, List.not_mem_nil, IsEmpty.forall_iff, implies_true, and_true]
  refine ⟨⟨⟨x1, y0, z0⟩, by simp [boxVerts], ⟨x1, y1, z0⟩, by simp [boxVerts], ⟨x1, y0, z1⟩, by simp [boxVerts], ?_, ?_⟩,
    ⟨⟨x0, y0, z0⟩, by simp [boxVerts], ⟨x0, y1, z0⟩, by simp [boxVerts], ⟨x0, y0, z1⟩, by simp [boxVerts], ?_, ?_⟩,
    ⟨⟨x0, y1, z0⟩, by simp [boxVerts], ⟨x1, y1, z0⟩, by simp [boxVerts], ⟨x0, y1, z1⟩, by simp [boxVerts], ?_, ?_⟩,
    ⟨⟨x0, y0, z0⟩, by simp [boxVerts], ⟨x1, y0, z0⟩, by simp [boxVerts], ⟨x0, y0, z1⟩, by simp [boxVerts], ?_, ?_⟩,
    ⟨⟨x0, y0, z1⟩, by simp [boxVerts], ⟨x1, y0, z1⟩, by simp [boxVerts], ⟨x0, y1, z1⟩, by simp [boxVerts], ?_, ?_⟩,
    ⟨⟨x0, y0, z0⟩, by simp [boxVerts], ⟨x1, y0, z0⟩, by simp [boxVerts], ⟨x0, y1, z0⟩, by simp [boxVerts], ?_, ?_⟩⟩
  all_goals first
    | (simp [V3.dot]; done)
    | (intro h; have := congrArg V3.x h; simp [V3.cross] at this; rcases this with h | h <;> linarith)
    | (intro h; have := congrArg V3.y h; simp [V3.cross] at this; rcases this with h | h <;> linarith)
    | (intro h; have := congrArg V3.z h; simp [V3.cross] at this; rcases this with h | h <;> linarith)

/-- a box beam along x is built -/
theorem boxBeam_new (x0 x1 y0 y1 z0 z1 : ℝ) : ∃ b, Beam.new (beamQhull List.length fun _ => boxHull x0 x1 y0 y1 z0 z1)
    (boxVerts x0 x1 y0 y1 z0 z1) ⟨1, 0, 0⟩ (2 * Real.pi) ⟨0, 0, 1⟩ = .ok b := by
  have hp := Real.pi_pos
  have n1 : norm (⟨1, 0, 0⟩ : V3) = 1 := by rw [norm_eq_one]; simp [nsq, V3.dot]
  have n2 : norm (⟨0, 0, 1⟩ : V3) = 1 := by rw [norm_eq_one]; simp [nsq, V3.dot]
  unfold Beam.new
  dsimp only
  rw [if_neg (by positivity), if_neg (by simp [beamQhull]), n1, n2, if_neg, if_pos]
  · exact ⟨_, rfl⟩
  · norm_num [allclose, V3.dot]
  · rintro (h | h)
    · have := congrArg V3.x h; simp at this
    · have := congrArg V3.z h; simp at this

/-- the hypotheses of `C87_box`, `C87_contains_deep` and `C87_contains_near` are met by a box
with one limit that is not a multiple of a millionth -/
example : ∃ b, Beam.new (beamQhull List.length fun _ => boxHull (-5) 5 (-1) (1 / 3) (-2) 2) (boxVerts (-5) 5 (-1) (1 / 3) (-2) 2)
      ⟨1, 0, 0⟩ (2 * Real.pi) ⟨0, 0, 1⟩ = .ok b ∧
    IsHull (boxHull (-5) 5 (-1) (1 / 3) (-2) 2) (boxVerts (-5) 5 (-1) (1 / 3) (-2) 2) ∧ Facets (boxHull (-5) 5 (-1) (1 / 3) (-2) 2) ∧
    BoxCorners (boxVerts (-5) 5 (-1) (1 / 3) (-2) 2) (-5) 5 (-1) (1 / 3) (-2) 2 ∧ SixDecimals (1 / 3) (333333 / 10 ^ 6) ∧
    BallIn (boxVerts (-5) 5 (-1) (1 / 3) (-2) 2) 0 (1 / 4) ∧ blur 0 ≤ 1 / 4 := by
  obtain ⟨b, hb⟩ := boxBeam_new (-5) 5 (-1) (1 / 3) (-2) 2
  refine ⟨b, hb, boxHull_isHull (by norm_num) (by norm_num) (by norm_num), boxHull_facets (by norm_num) (by norm_num) (by norm_num),
    boxVerts_corners _ _ _ _ _ _, ⟨333333, by norm_num, .inl (by rw [abs_lt]; norm_num)⟩, ?_, ?_⟩
  · intro q hq
    rw [box_hull (boxVerts_corners _ _ _ _ _ _) (by norm_num) (by norm_num) (by norm_num)]
    unfold V3.dist at hq
    rw [sub_zero] at hq
    have hn := norm_sq q
    have hq2 : norm q * norm q ≤ 1 / 4 * (1 / 4) := mul_le_mul hq hq (norm_nonneg _) (by norm_num)
    have hsum : q.x * q.x + q.y * q.y + q.z * q.z ≤ 1 / 4 * (1 / 4) := by
      have : nsq q = q.x * q.x + q.y * q.y + q.z * q.z := by simp [nsq, V3.dot]
      rw [← this, ← hn]; nlinarith
    have h1 : |q.x| ≤ 1 / 4 := abs_le_of_sq_le_sq (by nlinarith [mul_self_nonneg q.y, mul_self_nonneg q.z]) (by norm_num)
    have h2 : |q.y| ≤ 1 / 4 := abs_le_of_sq_le_sq (by nlinarith [mul_self_nonneg q.x, mul_self_nonneg q.z]) (by norm_num)
    have h3 : |q.z| ≤ 1 / 4 := abs_le_of_sq_le_sq (by nlinarith [mul_self_nonneg q.y, mul_self_nonneg q.x]) (by norm_num)
    rw [abs_le] at h1 h2 h3
    refine ⟨⟨?_, ?_⟩, ⟨?_, ?_⟩, ?_, ?_⟩ <;> linarith [h1.1, h1.2, h2.1, h2.2, h3.1, h3.2]
  · norm_num [blur]

/-! ### What the rounding breaks -/

/-- A beam that contains no point produces no peaks, whatever the sample, the motion and the limits. -/
theorem dark_beam {b : Beam} (hb : ∀ p, ¬ b.contains p) (x : Xfab) (P : Polycrystal) (m : Motion) (lo hi : ℝ) (det : Option Detector)
    (d : PeaksDict) (P' : Polycrystal) (h : P.diffract x b m lo hi det = .ok (d, P')) : d.peaks = [] := by
  obtain ⟨lo', hi', -, -, hcore⟩ := Polycrystal.diffract_ok h
  obtain ⟨computed, hc, hf, -⟩ := C39_diffract_filters_and_numbers _ _ _ _ hcore
  have : d.peaks.map List.dropLast = [] := by
    rw [hf, List.filter_eq_nil_iff]
    intro r _
    rw [decide_eq_true_iff]
    rintro ⟨p, -, hp⟩
    exact hb p hp
  simpa using this

/-- **C87** fails: a cubic beam of side one micrometre, given in metres, is built without complaint, contains no point at all although
its vertices span a cube around the origin, and no sample ever produces a peak in it. -/
theorem C87_micrometre_beam_in_metres_fails :
    ∃ (count : List V3 → ℕ) (hull : List V3 → Hull) (vs : List V3) (dir : V3) (wl : ℝ) (pol : V3) (b : Beam),
      BoxCorners vs (-(5 / 10 ^ 7)) (5 / 10 ^ 7) (-(5 / 10 ^ 7)) (5 / 10 ^ 7) (-(5 / 10 ^ 7)) (5 / 10 ^ 7) ∧
      IsHull (hull vs) vs ∧ Facets (hull vs) ∧ Beam.new (beamQhull count hull) vs dir wl pol = .ok b ∧
      (∀ p, ¬ b.contains p) ∧
      ∀ (x : Xfab) (P : Polycrystal) (m : Motion) (lo hi : ℝ) (det : Option Detector) (d : PeaksDict) (P' : Polycrystal),
        P.diffract x b m lo hi det = .ok (d, P') → d.peaks = [] := by
  have hlt : -(5 / 10 ^ 7 : ℝ) < 5 / 10 ^ 7 := by norm_num
  obtain ⟨b, hb⟩ := boxBeam_new (-(5 / 10 ^ 7)) (5 / 10 ^ 7) (-(5 / 10 ^ 7)) (5 / 10 ^ 7) (-(5 / 10 ^ 7)) (5 / 10 ^ 7)
  have s1 : SixDecimals (5 / 10 ^ 7) 0 := ⟨0, by norm_num, .inr ⟨by rw [abs_of_nonpos] <;> norm_num, by decide⟩⟩
  have s0 : SixDecimals (-(5 / 10 ^ 7)) 0 := ⟨0, by norm_num, .inr ⟨by rw [abs_of_nonneg] <;> norm_num, by decide⟩⟩
  have hd : ∀ p, ¬ b.contains p := by
    intro p hp
    rw [C87_box _ _ _ _ _ _ b hb (boxHull_isHull hlt hlt hlt) (boxHull_facets hlt hlt hlt) _ _ _ _ _ _ hlt hlt hlt
      (boxVerts_corners _ _ _ _ _ _) 0 0 0 0 0 0 s0 s1 s0 s1 s0 s1] at hp
    linarith [hp.1.1, hp.1.2]
  exact ⟨_, _, _, _, _, _, b, boxVerts_corners _ _ _ _ _ _, boxHull_isHull hlt hlt hlt, boxHull_facets hlt hlt hlt, hb, hd,
    fun x P m lo hi det d P' h => dark_beam hd x P m lo hi det d P' h⟩

/-- **C87** fails: a beam can contain points outside the hull of its vertices: one with sides at 6/10⁷ reaches to 10/10⁷. -/
theorem C87_contains_outside_fails :
    ∃ (count : List V3 → ℕ) (hull : List V3 → Hull) (vs : List V3) (dir : V3) (wl : ℝ) (pol : V3) (b : Beam) (p : V3),
      IsHull (hull vs) vs ∧ Facets (hull vs) ∧ Beam.new (beamQhull count hull) vs dir wl pol = .ok b ∧
      b.contains p ∧ p ∉ convexHull ℝ {v | v ∈ vs} := by
  have hlt : -(6 / 10 ^ 7 : ℝ) < 6 / 10 ^ 7 := by norm_num
  obtain ⟨b, hb⟩ := boxBeam_new (-(6 / 10 ^ 7)) (6 / 10 ^ 7) (-(6 / 10 ^ 7)) (6 / 10 ^ 7) (-(6 / 10 ^ 7)) (6 / 10 ^ 7)
  have s1 : SixDecimals (6 / 10 ^ 7) (1 / 10 ^ 6) := ⟨1, by norm_num, .inl (by rw [abs_lt]; norm_num)⟩
  have s0 : SixDecimals (-(6 / 10 ^ 7)) (-(1 / 10 ^ 6)) := ⟨-1, by norm_num, .inl (by rw [abs_lt]; norm_num)⟩
  refine ⟨_, _, _, _, _, _, b, ⟨9 / 10 ^ 7, 9 / 10 ^ 7, 9 / 10 ^ 7⟩, boxHull_isHull hlt hlt hlt, boxHull_facets hlt hlt hlt, hb, ?_, ?_⟩
  · rw [C87_box _ _ _ _ _ _ b hb (boxHull_isHull hlt hlt hlt) (boxHull_facets hlt hlt hlt) _ _ _ _ _ _ hlt hlt hlt
      (boxVerts_corners _ _ _ _ _ _) _ _ _ _ _ _ s0 s1 s0 s1 s0 s1]
    norm_num
  · rw [box_hull (boxVerts_corners _ _ _ _ _ _) hlt hlt hlt]
    norm_num

end Box

end XRD
