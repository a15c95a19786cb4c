import Verif.Lemmas.Mesh
import Mathlib.Data.List.GetD

/-! Bounding spheres of elements: when they are as small as possible. -/

namespace XRD.Spec
open XRD V3
/-- `c` is a point of the tetrahedron `t`: a convex combination of its vertices. -/
def InElement (t : Q4 V3) (c : V3) : Prop :=
  ∃ u v w x : ℝ, 0 ≤ u ∧ 0 ≤ v ∧ 0 ≤ w ∧ 0 ≤ x ∧ u + v + w + x = 1 ∧ c = u • t.a + v • t.b + w • t.c + x • t.d
/-- every vertex of `t` is within `r` of `c` -/
def InBall (t : Q4 V3) (c : V3) (r : ℝ) : Prop :=
  V3.dist t.a c ≤ r ∧ V3.dist t.b c ≤ r ∧ V3.dist t.c c ≤ r ∧ V3.dist t.d c ≤ r
/-- every vertex of `t` is at distance `r` from `c` -/
def OnSphere (t : Q4 V3) (c : V3) (r : ℝ) : Prop :=
  V3.dist t.a c = r ∧ V3.dist t.b c = r ∧ V3.dist t.c c = r ∧ V3.dist t.d c = r
end XRD.Spec

namespace XRD
open V3 M3 Spec
open Classical

theorem argmax_spec (l : List ℝ) (i : ℕ) (hi : i < l.length) :
    argmax l < l.length ∧ l.getD i 0 ≤ l.getD (argmax l) 0 := by
  have key : ∀ (js : List ℕ) (b : ℕ), b < l.length → (∀ j ∈ js, j < l.length) →
      let r := js.foldl (fun best i => if l.getD best 0 < l.getD i 0 then i else best) b
      r < l.length ∧ l.getD b 0 ≤ l.getD r 0 ∧ ∀ j ∈ js, l.getD j 0 ≤ l.getD r 0 := by
    intro js
    induction js with
    | nil => intro b hb _; exact ⟨hb, le_refl _, by simp⟩
    | cons k ks ih =>
      intro b hb hk
      simp only [List.foldl_cons]
      have hk0 := hk k List.mem_cons_self
      have hks := fun j hj => hk j (List.mem_cons_of_mem _ hj)
      by_cases hlt : l.getD b 0 < l.getD k 0
      · rw [if_pos hlt]
        obtain ⟨a1, a2, a3⟩ := ih k hk0 hks
        refine ⟨a1, hlt.le.trans a2, ?_⟩
        intro j hj
        rcases List.mem_cons.1 hj with rfl | hj
        · exact a2
        · exact a3 j hj
      · rw [if_neg hlt]
        obtain ⟨a1, a2, a3⟩ := ih b hb hks
        refine ⟨a1, a2, ?_⟩
        intro j hj
        rcases List.mem_cons.1 hj with rfl | hj
        · exact (not_lt.1 hlt).trans a2
        · exact a3 j hj
  have h0 : 0 < l.length := lt_of_le_of_lt (Nat.zero_le _) hi
  obtain ⟨a1, -, a3⟩ := key (List.range l.length) 0 h0 (by simp)
  exact ⟨a1, a3 i (List.mem_range.2 hi)⟩

/-- the balance of squared distances: a ball around a weighted mean of points is no larger than any ball holding them -/
theorem mean_ball {p q r s c : V3} {u v w x R : ℝ} (hu : 0 ≤ u) (hv : 0 ≤ v) (hw : 0 ≤ w) (hx : 0 ≤ x)
    (h1 : u + v + w + x = 1) (hc : c = u • p + v • q + w • r + x • s)
    (hp : u * nsq (p - c) = u * R ^ 2) (hq : v * nsq (q - c) = v * R ^ 2) (hr : w * nsq (r - c) = w * R ^ 2)
    (hs : x * nsq (s - c) = x * R ^ 2) {c' : V3} {r' : ℝ} (hb : InBall ⟨p, q, r, s⟩ c' r') : R ≤ r' := by
  obtain ⟨b1, b2, b3, b4⟩ := hb
  dsimp only [V3.dist] at b1 b2 b3 b4
  have hr' : 0 ≤ r' := (norm_nonneg _).trans b1
  have sq : ∀ {a : V3}, norm a ≤ r' → nsq a ≤ r' ^ 2 := by
    intro a ha
    rw [← norm_sq]
    exact pow_le_pow_left₀ (norm_nonneg _) ha 2
  have s1 := mul_le_mul_of_nonneg_left (sq b1) hu
  have s2 := mul_le_mul_of_nonneg_left (sq b2) hv
  have s3 := mul_le_mul_of_nonneg_left (sq b3) hw
  have s4 := mul_le_mul_of_nonneg_left (sq b4) hx
  have e : u * nsq (p - c') + v * nsq (q - c') + w * nsq (r - c') + x * nsq (s - c') =
      u * nsq (p - c) + v * nsq (q - c) + w * nsq (r - c) + x * nsq (s - c) + nsq (c - c') := by
    have ux : u = 1 - v - w - x := by linarith
    have cx := congrArg V3.x hc
    have cy := congrArg V3.y hc
    have cz := congrArg V3.z hc
    simp only [V3.add_x, V3.add_y, V3.add_z, V3.smul_x, V3.smul_y, V3.smul_z] at cx cy cz
    simp only [nsq, V3.dot, V3.sub_x, V3.sub_y, V3.sub_z]
    rw [ux] at cx cy cz ⊢
    linear_combination (2 * (c'.x - c.x)) * cx + (2 * (c'.y - c.y)) * cy + (2 * (c'.z - c.z)) * cz
  have h2 := nsq_nonneg (c - c')
  have : R ^ 2 ≤ r' ^ 2 := by
    have : (u + v + w + x) * R ^ 2 ≤ (u + v + w + x) * r' ^ 2 := by nlinarith
    rw [h1] at this; linarith
  nlinarith [abs_le_of_sq_le_sq this hr', le_abs_self R]

theorem tri_scalar {A C D : ℝ} (h : A * C - D ^ 2 ≠ 0) :
    1 - C * (A - D) / (2 * (A * C - D ^ 2)) - A * (C - D) / (2 * (A * C - D ^ 2)) =
        D * (A + C - 2 * D) / (2 * (A * C - D ^ 2)) ∧
    C * (A - D) / (2 * (A * C - D ^ 2)) * A + A * (C - D) / (2 * (A * C - D ^ 2)) * D = A / 2 ∧
    C * (A - D) / (2 * (A * C - D ^ 2)) * D + A * (C - D) / (2 * (A * C - D ^ 2)) * C = C / 2 := by
  generalize hN : A * C - D ^ 2 = N at *
  refine ⟨?_, ?_, ?_⟩ <;> field_simp <;> rw [← hN] <;> ring

/-- The circumcircle of a triangle `p q s` whose longest side is `pq` and whose third vertex lies outside the sphere with
diameter `pq`. -/
theorem sphere3_weights {p q s : V3} (h1 : V3.dist p s ≤ V3.dist p q) (h2 : V3.dist q s ≤ V3.dist p q)
    (h3 : V3.dist p q / 2 < norm (s - (1 / 2 : ℝ) • (p + q))) :
    ∃ α β γ : ℝ, 0 ≤ α ∧ 0 ≤ β ∧ 0 ≤ γ ∧ α + β + γ = 1 ∧ (sphere3 p q s).1 = α • p + β • q + γ • s ∧
      ∃ R, (sphere3 p q s).2 = R * slack ∧ 0 ≤ R ∧ nsq (p - (sphere3 p q s).1) = R ^ 2 ∧
        nsq (q - (sphere3 p q s).1) = R ^ 2 ∧ nsq (s - (sphere3 p q s).1) = R ^ 2 := by
  have sqle : ∀ a b : V3, norm a ≤ norm b → nsq a ≤ nsq b := by
    intro a b h
    rw [← norm_sq, ← norm_sq]
    exact pow_le_pow_left₀ (norm_nonneg _) h 2
  have k1 := sqle _ _ h1
  have k2 := sqle _ _ h2
  have k3 : nsq (p - q) / 4 < nsq (s - (1 / 2 : ℝ) • (p + q)) := by
    have := pow_lt_pow_left₀ h3 (by unfold V3.dist; have := norm_nonneg (p - q); positivity) two_ne_zero
    rw [norm_sq, div_pow, V3.dist, norm_sq] at this
    linarith
  set ab := q - p with hab
  set ac := s - p with hac
  have f1 : nsq ac ≤ nsq ab := by
    have e1 : nsq (p - s) = nsq ac := by rw [hac]; simp only [nsq, V3.dot, V3.sub_x, V3.sub_y, V3.sub_z]; ring
    have e2 : nsq (p - q) = nsq ab := by rw [hab]; simp only [nsq, V3.dot, V3.sub_x, V3.sub_y, V3.sub_z]; ring
    rw [e1, e2] at k1; exact k1
  have f2 : nsq ac ≤ 2 * ab.dot ac := by
    have e1 : nsq (q - s) = nsq ab + nsq ac - 2 * ab.dot ac := by
      rw [hab, hac]; simp only [nsq, V3.dot, V3.sub_x, V3.sub_y, V3.sub_z]; ring
    have e2 : nsq (p - q) = nsq ab := by rw [hab]; simp only [nsq, V3.dot, V3.sub_x, V3.sub_y, V3.sub_z]; ring
    rw [e1, e2] at k2; linarith
  have f3 : ab.dot ac < nsq ac := by
    have e1 : nsq (s - (1 / 2 : ℝ) • (p + q)) = nsq ac - ab.dot ac + nsq ab / 4 := by
      rw [hab, hac]
      simp only [nsq, V3.dot, V3.sub_x, V3.sub_y, V3.sub_z, V3.smul_x, V3.smul_y, V3.smul_z, V3.add_x, V3.add_y, V3.add_z]; ring
    have e2 : nsq (p - q) = nsq ab := by rw [hab]; simp only [nsq, V3.dot, V3.sub_x, V3.sub_y, V3.sub_z]; ring
    rw [e1, e2] at k3; linarith
  set A := nsq ab with hA
  set C := nsq ac with hC
  set D := ab.dot ac with hD
  have hC0 : 0 ≤ C := nsq_nonneg _
  have hD0 : 0 ≤ D := by linarith
  have hN : 0 < A * C - D ^ 2 := by nlinarith
  have hN' : A * C - D ^ 2 ≠ 0 := hN.ne'
  have hn : nsq (cross ab ac) = A * C - D ^ 2 := lagrange ab ac
  have hu : (1 / (2 * (cross ab ac).norm ^ 2)) • ((ac.norm ^ 2) • cross (cross ab ac) ab + (ab.norm ^ 2) • cross (cross ac ab) ac)
      = (C * (A - D) / (2 * (A * C - D ^ 2))) • ab + (A * (C - D) / (2 * (A * C - D ^ 2))) • ac := by
    rw [norm_sq, norm_sq, norm_sq, hn, ← hA, ← hC]
    have i1 : cross (cross ab ac) ab = A • ac - D • ab := by
      rw [hA, hD]; ext <;> simp [cross, nsq, V3.dot] <;> ring
    have i2 : cross (cross ac ab) ac = C • ab - D • ac := by
      rw [hC, hD]; ext <;> simp [cross, nsq, V3.dot] <;> ring
    rw [i1, i2]
    ext <;> simp <;> field_simp <;> ring
  set β := C * (A - D) / (2 * (A * C - D ^ 2)) with hβ
  set γ := A * (C - D) / (2 * (A * C - D ^ 2)) with hγ
  have hs3 : (sphere3 p q s).1 = p + (β • ab + γ • ac) := by
    rw [← hu]; rfl
  have hr3 : (sphere3 p q s).2 = norm (β • ab + γ • ac) * slack := by
    rw [← hu]; rfl
  have hβγ : 1 - β - γ = D * (A + C - 2 * D) / (2 * (A * C - D ^ 2)) := by
    rw [hβ, hγ]; exact (tri_scalar hN').1
  refine ⟨1 - β - γ, β, γ, ?_, ?_, ?_, by ring, ?_, norm (β • ab + γ • ac), hr3, norm_nonneg _, ?_, ?_, ?_⟩
  · rw [hβγ]; apply div_nonneg (mul_nonneg hD0 (by linarith)) (by linarith)
  · apply div_nonneg (mul_nonneg hC0 (by linarith)) (by linarith)
  · apply div_nonneg (mul_nonneg (by linarith) (by linarith)) (by linarith)
  · rw [hs3, hab, hac]; ext <;> simp <;> ring
  · rw [hs3, norm_sq]; simp only [nsq, V3.dot, V3.sub_x, V3.sub_y, V3.sub_z, V3.add_x, V3.add_y, V3.add_z]; ring
  · rw [hs3, norm_sq]
    have e1 : nsq (q - (p + (β • ab + γ • ac))) = nsq (β • ab + γ • ac) + (A - 2 * (β * A + γ * D)) := by
      rw [hA, hD]
      have : q - (p + (β • ab + γ • ac)) = ab - (β • ab + γ • ac) := by rw [hab]; abel
      rw [this]; simp only [nsq, V3.dot, V3.sub_x, V3.sub_y, V3.sub_z, V3.add_x, V3.add_y, V3.add_z, V3.smul_x, V3.smul_y, V3.smul_z]; ring
    have e2 : β * A + γ * D = A / 2 := by rw [hβ, hγ]; exact (tri_scalar hN').2.1
    rw [e1, e2]; ring
  · rw [hs3, norm_sq]
    have e1 : nsq (s - (p + (β • ab + γ • ac))) = nsq (β • ab + γ • ac) + (C - 2 * (β * D + γ * C)) := by
      rw [hC, hD]
      have : s - (p + (β • ab + γ • ac)) = ac - (β • ab + γ • ac) := by rw [hac]; abel
      rw [this]; simp only [nsq, V3.dot, V3.sub_x, V3.sub_y, V3.sub_z, V3.add_x, V3.add_y, V3.add_z, V3.smul_x, V3.smul_y, V3.smul_z]; ring
    have e2 : β * D + γ * C = C / 2 := by rw [hβ, hγ]; exact (tri_scalar hN').2.2
    rw [e1, e2]; ring


/-- The two outcomes of the sphere computation: the centre is a weighted mean of vertices at one distance from it, or the
sphere is the circumscribed one. -/
theorem sphereOf_cases {t : Tet} (ht : signedVolume t ≠ 0) :
    (∃ u v w x R : ℝ, 0 ≤ u ∧ 0 ≤ v ∧ 0 ≤ w ∧ 0 ≤ x ∧ u + v + w + x = 1 ∧
      (sphereOf t).1 = u • t.a + v • t.b + w • t.c + x • t.d ∧ (sphereOf t).2 = R * slack ∧
      u * nsq (t.a - (sphereOf t).1) = u * R ^ 2 ∧ v * nsq (t.b - (sphereOf t).1) = v * R ^ 2 ∧
      w * nsq (t.c - (sphereOf t).1) = w * R ^ 2 ∧ x * nsq (t.d - (sphereOf t).1) = x * R ^ 2) ∨
    sphereOf t = sphere4 t := by
  have hlen : (sidesOf t).length = 6 := rfl
  have hmax : ∀ k < 6, argmax (sidesOf t) < 6 ∧ (sidesOf t).getD k 0 ≤ (sidesOf t).getD (argmax (sidesOf t)) 0 := by
    intro k hk; exact argmax_spec (sidesOf t) k (by rw [hlen]; exact hk)
  have m0 := (hmax 0 (by norm_num)).2
  have m1 := (hmax 1 (by norm_num)).2
  have m2 := (hmax 2 (by norm_num)).2
  have m3 := (hmax 3 (by norm_num)).2
  have m4 := (hmax 4 (by norm_num)).2
  have m5 := (hmax 5 (by norm_num)).2
  have hlt := (hmax 0 (by norm_num)).1
  have g0 : t.get 0 = t.a := rfl
  have g1 : t.get 1 = t.b := rfl
  have g2 : t.get 2 = t.c := rfl
  have g3 : t.get 3 = t.d := rfl
  unfold sphereOf
  extract_lets ij others o1 o2 s1 d1 d2 third s2 s3
  by_cases c1 : d1 - s1.2 ≤ 0 ∧ d2 - s1.2 ≤ 0
  · left
    rw [if_pos c1]
    have e : s1 = sphere2 (t.get ij.1) (t.get ij.2) := rfl
    have r2 : s1.2 = norm (s1.1 - t.get ij.1) * slack := rfl
    have hq : nsq (t.get ij.2 - s1.1) = norm (s1.1 - t.get ij.1) ^ 2 := by
      rw [norm_sq]; simp [e, sphere2, nsq, V3.dot]; ring
    have hp : nsq (t.get ij.1 - s1.1) = norm (s1.1 - t.get ij.1) ^ 2 := by
      rw [norm_sq]; simp [nsq, V3.dot]; ring
    have hc : s1.1 = (1 / 2 : ℝ) • (t.get ij.1 + t.get ij.2) := rfl
    set R := norm (s1.1 - t.get ij.1) with hR
    clear_value R
    have hij : ij ∈ pairTable := by
      show pairTable.getD _ _ ∈ _
      rw [List.getD_eq_getElem _ _ hlt]; exact List.getElem_mem _
    clear_value s1
    simp only [pairTable, List.mem_cons, List.not_mem_nil, or_false] at hij
    have hh : (0:ℝ) ≤ 1 / 2 := by norm_num
    have z0 : (0:ℝ) ≤ 0 := le_refl 0
    rcases hij with h | h | h | h | h | h <;> rw [h] at hp hq hc <;> simp only [g0, g1, g2, g3] at hp hq hc
    · exact ⟨1/2, 1/2, 0, 0, R, hh, hh, z0, z0, by norm_num, by rw [hc]; ext <;> simp <;> ring, r2, by rw [hp], by rw [hq], by simp, by simp⟩
    · exact ⟨1/2, 0, 1/2, 0, R, hh, z0, hh, z0, by norm_num, by rw [hc]; ext <;> simp <;> ring, r2, by rw [hp], by simp, by rw [hq], by simp⟩
    · exact ⟨1/2, 0, 0, 1/2, R, hh, z0, z0, hh, by norm_num, by rw [hc]; ext <;> simp <;> ring, r2, by rw [hp], by simp, by simp, by rw [hq]⟩
    · exact ⟨0, 1/2, 1/2, 0, R, z0, hh, hh, z0, by norm_num, by rw [hc]; ext <;> simp <;> ring, r2, by simp, by rw [hp], by rw [hq], by simp⟩
    · exact ⟨0, 1/2, 0, 1/2, R, z0, hh, z0, hh, by norm_num, by rw [hc]; ext <;> simp <;> ring, r2, by simp, by rw [hp], by simp, by rw [hq]⟩
    · exact ⟨0, 0, 1/2, 1/2, R, z0, z0, hh, hh, by norm_num, by rw [hc]; ext <;> simp <;> ring, r2, by simp, by simp, by rw [hp], by rw [hq]⟩
  · rw [if_neg c1]
    split_ifs with c2
    · left
      have hhalf : norm (s1.1 - t.get ij.1) = V3.dist (t.get ij.1) (t.get ij.2) / 2 := by
        have : s1.1 - t.get ij.1 = (-1 / 2 : ℝ) • (t.get ij.1 - t.get ij.2) := by
          show (1 / 2 : ℝ) • (t.get ij.1 + t.get ij.2) - t.get ij.1 = _
          ext <;> simp <;> ring
        rw [this, V3.norm_smul, V3.dist]; norm_num; ring
      have r2 : s1.2 = norm (s1.1 - t.get ij.1) * slack := rfl
      have hs1 : V3.dist (t.get ij.1) (t.get ij.2) / 2 ≤ s1.2 := by
        rw [r2, ← hhalf]; exact le_slack (norm_nonneg _)
      have hg0 : [d1, d2].getD 0 0 = d1 := rfl
      have hg1 : [d1, d2].getD 1 0 = d2 := rfl
      obtain ⟨ha, hb1⟩ := argmax_spec [d1, d2] 0 (by norm_num)
      have hb2 := (argmax_spec [d1, d2] 1 (by norm_num)).2
      have hthird : V3.dist (t.get ij.1) (t.get ij.2) / 2 < norm (third - (1 / 2 : ℝ) • (t.get ij.1 + t.get ij.2)) ∧
          (third = o1 ∨ third = o2) := by
        have hc : s1.1 = (1 / 2 : ℝ) • (t.get ij.1 + t.get ij.2) := rfl
        rw [← hc]
        by_cases hz : argmax [d1, d2] = 0
        · have e3 : third = o1 := if_pos hz
          rw [hz, hg0, hg1] at hb2
          refine ⟨?_, Or.inl e3⟩
          rw [e3]
          show _ < d1
          by_contra hle
          apply c1
          constructor <;> linarith
        · have e3 : third = o2 := if_neg hz
          have hz1 : argmax [d1, d2] = 1 := by
            simp only [List.length_cons, List.length_nil] at ha; omega
          rw [hz1, hg0, hg1] at hb1
          refine ⟨?_, Or.inr e3⟩
          rw [e3]
          show _ < d2
          by_contra hle
          apply c1
          constructor <;> linarith
      obtain ⟨h3, hor⟩ := hthird
      have main : V3.dist (t.get ij.1) third ≤ V3.dist (t.get ij.1) (t.get ij.2) →
          V3.dist (t.get ij.2) third ≤ V3.dist (t.get ij.1) (t.get ij.2) → ∃ α β γ : ℝ, 0 ≤ α ∧ 0 ≤ β ∧ 0 ≤ γ ∧
          α + β + γ = 1 ∧ s2.1 = α • t.get ij.1 + β • t.get ij.2 + γ • third ∧
      ∃ R, s2.2 = R * slack ∧ 0 ≤ R ∧ nsq (t.get ij.1 - s2.1) = R ^ 2 ∧
        nsq (t.get ij.2 - s2.1) = R ^ 2 ∧ nsq (third - s2.1) = R ^ 2 := fun h1 h2 => sphere3_weights h1 h2 h3
      clear_value s2 third s1 d1 d2
      have hpos : ij = pairTable.getD (argmax (sidesOf t)) (0, 1) := rfl
      have dc : ∀ a b : V3, V3.dist a b = V3.dist b a := fun a b => by
        unfold V3.dist; rw [V3.norm_sub_comm]
      have c0 : argmax (sidesOf t) = 0 ∨ argmax (sidesOf t) = 1 ∨ argmax (sidesOf t) = 2 ∨ argmax (sidesOf t) = 3 ∨
          argmax (sidesOf t) = 4 ∨ argmax (sidesOf t) = 5 := by omega
      have z0 : (0:ℝ) ≤ 0 := le_refl 0
      rcases c0 with h | h | h | h | h | h <;> rw [h] at m0 m1 m2 m3 m4 m5 hpos <;>
        simp only [sidesOf, List.getD_cons_zero, List.getD_cons_succ] at m0 m1 m2 m3 m4 m5 <;>
        simp only [pairTable, List.getD_cons_zero, List.getD_cons_succ] at hpos <;>
        simp only [o1, o2, others, hpos] at hor <;>
        simp [Q4.get] at hor <;>
        rw [hpos] at main <;> simp only [g0, g1, g2, g3] at main <;>
        rcases hor with h' | h' <;> rw [h'] at main
      all_goals
        obtain ⟨α, β, γ, hα, hβ, hγ, hsum, hc, R, hR, hR0, n1, n2, n3⟩ := main
          (by linarith [dc t.a t.b, dc t.a t.c, dc t.a t.d, dc t.b t.c, dc t.b t.d, dc t.c t.d])
          (by linarith [dc t.a t.b, dc t.a t.c, dc t.a t.d, dc t.b t.c, dc t.b t.d, dc t.c t.d])
      · exact ⟨α, β, γ, 0, R, hα, hβ, hγ, z0, by linarith, by rw [hc]; ext <;> simp <;> ring, hR, by rw [n1], by rw [n2], by rw [n3], by simp⟩
      · exact ⟨α, β, 0, γ, R, hα, hβ, z0, hγ, by linarith, by rw [hc]; ext <;> simp <;> ring, hR, by rw [n1], by rw [n2], by simp, by rw [n3]⟩
      · exact ⟨α, γ, β, 0, R, hα, hγ, hβ, z0, by linarith, by rw [hc]; ext <;> simp <;> ring, hR, by rw [n1], by rw [n3], by rw [n2], by simp⟩
      · exact ⟨α, 0, β, γ, R, hα, z0, hβ, hγ, by linarith, by rw [hc]; ext <;> simp <;> ring, hR, by rw [n1], by simp, by rw [n2], by rw [n3]⟩
      · exact ⟨α, γ, 0, β, R, hα, hγ, z0, hβ, by linarith, by rw [hc]; ext <;> simp <;> ring, hR, by rw [n1], by rw [n3], by simp, by rw [n2]⟩
      · exact ⟨α, 0, γ, β, R, hα, z0, hγ, hβ, by linarith, by rw [hc]; ext <;> simp <;> ring, hR, by rw [n1], by simp, by rw [n3], by rw [n2]⟩
      · exact ⟨γ, α, β, 0, R, hγ, hα, hβ, z0, by linarith, by rw [hc]; ext <;> simp <;> ring, hR, by rw [n3], by rw [n1], by rw [n2], by simp⟩
      · exact ⟨0, α, β, γ, R, z0, hα, hβ, hγ, by linarith, by rw [hc]; ext <;> simp <;> ring, hR, by simp, by rw [n1], by rw [n2], by rw [n3]⟩
      · exact ⟨γ, α, 0, β, R, hγ, hα, z0, hβ, by linarith, by rw [hc]; ext <;> simp <;> ring, hR, by rw [n3], by rw [n1], by simp, by rw [n2]⟩
      · exact ⟨0, α, γ, β, R, z0, hα, hγ, hβ, by linarith, by rw [hc]; ext <;> simp <;> ring, hR, by simp, by rw [n1], by rw [n3], by rw [n2]⟩
      · exact ⟨γ, 0, α, β, R, hγ, z0, hα, hβ, by linarith, by rw [hc]; ext <;> simp <;> ring, hR, by rw [n3], by simp, by rw [n1], by rw [n2]⟩
      · exact ⟨0, γ, α, β, R, z0, hγ, hα, hβ, by linarith, by rw [hc]; ext <;> simp <;> ring, hR, by simp, by rw [n3], by rw [n1], by rw [n2]⟩
    · right; rfl

end XRD
