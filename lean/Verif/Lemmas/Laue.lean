import Verif.Lemmas.Motion
import Verif.Model.Peaks

/-! Lemmas about the Laue solver. -/

namespace XRD
open V3 M3 Fl

theorem keepTime_eq {t : Fl} {r : ℝ} : keepTime t = some r ↔ t = fin r ∧ 0 ≤ r ∧ r ≤ 1 := by
  unfold keepTime
  cases t with
  | fin a =>
    simp only [Fl.le_fin]
    split_ifs with h
    · simp only [Option.some.injEq, Fl.fin.injEq]
      constructor
      · rintro rfl; exact ⟨rfl, h⟩
      · rintro ⟨rfl, -⟩; rfl
    · constructor
      · intro h'; simp at h'
      · rintro ⟨h1, h2⟩; obtain rfl := Fl.fin.inj h1; exact absurd h2 h
  | pinf => simp [Fl.Le]
  | ninf => simp [Fl.Le]
  | nan => simp

theorem mem_laueBranch {pick : Fl × Fl → Fl} {G0 : List (List V3)} {f0 f1 f2 : V3} {dω : ℝ} {s : LaueSol} :
    s ∈ laueBranch pick G0 f0 f1 f2 dω ↔ ∃ row, G0[s.grain]? = some row ∧ row[s.plane]? = some s.G ∧
      keepTime (laueTime (pick (laueRoots f0 f1 f2 s.G)) dω) = some s.time := by
  unfold laueBranch
  simp only [List.mem_flatMap, List.mem_range, List.mem_filterMap, Option.map_eq_some_iff]
  constructor
  · rintro ⟨g, hg, p, hp, t, ht, rfl⟩
    have h1 : G0.getD g [] = G0[g] := by simp [List.getD_eq_getElem?_getD, List.getElem?_eq_getElem hg]
    rw [h1] at hp ht ⊢
    refine ⟨G0[g], List.getElem?_eq_getElem hg, ?_, ht⟩
    simp [List.getD_eq_getElem?_getD, List.getElem?_eq_getElem hp]
  · rintro ⟨row, h1, h2, h3⟩
    obtain ⟨hg, rfl⟩ := List.getElem?_eq_some_iff.mp h1
    obtain ⟨hp, hv⟩ := List.getElem?_eq_some_iff.mp h2
    have e1 : G0.getD s.grain [] = G0[s.grain] := by simp [List.getD_eq_getElem?_getD, List.getElem?_eq_getElem hg]
    refine ⟨s.grain, hg, s.plane, by rw [e1]; exact hp, s.time, ?_, ?_⟩
    · rw [e1]; simp only [List.getD_eq_getElem?_getD, List.getElem?_eq_getElem hp, Option.getD_some, hv]; exact h3
    · rw [e1]; ext <;> simp [List.getD_eq_getElem?_getD, List.getElem?_eq_getElem hp, hv]

theorem laueRoots_nan {f0 f1 f2 G : V3} (h : f2.dot G + nsq G / 2 - f0.dot G = 0) :
    laueRoots f0 f1 f2 G = (nan, nan) := by
  unfold laueRoots; simp only [h, if_true]; simp

theorem laueRoots_ne {f0 f1 f2 G : V3} (h : f2.dot G + nsq G / 2 - f0.dot G ≠ 0) :
    laueRoots f0 f1 f2 G =
      (let D := f2.dot G + nsq G / 2 - f0.dot G
       let a := f1.dot G / D
       let b := (f2.dot G + nsq G / 2 + f0.dot G) / D
       if a * a - b < 0 then (nan, nan)
       else (fin (-a + Real.sqrt (a * a - b)), fin (-a - Real.sqrt (a * a - b)))) := by
  unfold laueRoots
  simp only [h, if_false, Fl.div_fin_ne h, Fl.mul_fin, Fl.sub_fin, Fl.lt_fin]
  split_ifs with h1
  · simp
  · simp [Fl.sqrt_fin (not_lt.mp h1)]

/-- Half-angle substitution. -/
theorem half_angle (s r0 r1 r2 : ℝ) :
    r0 * Real.cos (2 * Real.arctan s) + r1 * Real.sin (2 * Real.arctan s) + r2 = 0 ↔
      (r2 - r0) * s ^ 2 + 2 * r1 * s + (r0 + r2) = 0 := by
  have hp : 0 < 1 + s ^ 2 := by positivity
  have hc : Real.cos (2 * Real.arctan s) = (1 - s ^ 2) / (1 + s ^ 2) := by
    rw [Real.cos_two_mul, Real.cos_sq_arctan]; field_simp; ring
  have hs : Real.sin (2 * Real.arctan s) = 2 * s / (1 + s ^ 2) := by
    rw [Real.sin_two_mul, Real.sin_arctan, Real.cos_arctan]
    have : Real.sqrt (1 + s ^ 2) * Real.sqrt (1 + s ^ 2) = 1 + s ^ 2 := Real.mul_self_sqrt hp.le
    field_simp
    rw [sq (Real.sqrt _), this]
  rw [hc, hs]
  have e : r0 * ((1 - s ^ 2) / (1 + s ^ 2)) + r1 * (2 * s / (1 + s ^ 2)) + r2
      = ((r2 - r0) * s ^ 2 + 2 * r1 * s + (r0 + r2)) / (1 + s ^ 2) := by field_simp; ring
  rw [e, div_eq_zero_iff]
  constructor
  · rintro (h | h)
    · exact h
    · exact absurd h hp.ne'
  · intro h; exact Or.inl h

/-- The `rho` coefficients of the code express `k · R(θ)G + |G|²/2` (any axis). -/
theorem rho_identity (k axis G : V3) (θ : ℝ) :
    (rho0Factor k axis).dot G * Real.cos θ + (rho1Factor k axis).dot G * Real.sin θ +
      ((rho2Factor k axis).dot G + nsq G / 2) = k.dot ((rotMat axis θ).mulVec G) + nsq G / 2 := by
  simp only [rho0Factor, rho1Factor, rho2Factor, rotMat, vecMul, V3.dot, mulVec,
    M3.add_r0, M3.add_r1, M3.add_r2, M3.smul_r0, M3.smul_r1, M3.smul_r2, V3.add_x, V3.add_y, V3.add_z,
    V3.smul_x, V3.smul_y, V3.smul_z, V3.neg_x, V3.neg_y, V3.neg_z]
  ring

theorem elastic_iff {k G : V3} : Spec.Elastic k G ↔ k.dot G + nsq G / 2 = 0 := by
  unfold Spec.Elastic
  rw [norm_eq_iff]
  have : (k + G).nsq = k.nsq + 2 * k.dot G + G.nsq := by
    simp only [nsq, V3.dot, V3.add_x, V3.add_y, V3.add_z]; ring
  rw [this]; constructor <;> intro h <;> linarith

/-- Laue equation of the code = elastic scattering of the rotated vector. -/
theorem laue_iff_elastic {axis : V3} (ha : nsq axis = 1) (k G : V3) (θ : ℝ) :
    (rho0Factor k axis).dot G * Real.cos θ + (rho1Factor k axis).dot G * Real.sin θ +
      ((rho2Factor k axis).dot G + nsq G / 2) = 0 ↔ Spec.Elastic k (Spec.rotate axis θ G) := by
  rw [rho_identity, elastic_iff, ← rotMat_eq_spec ha, IsRot.nsq_mulVec (rotMat_isRot ha θ).1]

/-- Everything the solver reports is a root of the Laue equation. -/
theorem branch_sound {f0 f1 f2 G : V3} {dω t : ℝ} (hd : 0 < dω) {pick : Fl × Fl → Fl}
    (hpick : pick = Prod.fst ∨ pick = Prod.snd)
    (h : keepTime (laueTime (pick (laueRoots f0 f1 f2 G)) dω) = some t) :
    f0.dot G * Real.cos (t * dω) + f1.dot G * Real.sin (t * dω) + (f2.dot G + nsq G / 2) = 0 ∧ 0 ≤ t ∧ t ≤ 1 ∧
    ∃ s, pick (laueRoots f0 f1 f2 G) = fin s ∧ t * dω = 2 * Real.arctan s := by
  obtain ⟨h1, h2, h3⟩ := keepTime_eq.mp h
  by_cases hD : f2.dot G + nsq G / 2 - f0.dot G = 0
  · rw [laueRoots_nan hD] at h1
    rcases hpick with rfl | rfl <;> simp [laueTime] at h1
  · have hroots := laueRoots_ne (f1 := f1) hD
    simp only at hroots
    split_ifs at hroots with hneg
    · rw [hroots] at h1
      rcases hpick with rfl | rfl <;> simp [laueTime] at h1
    · have key : ∃ s, pick (laueRoots f0 f1 f2 G) = fin s ∧
          (f2.dot G + nsq G / 2 - f0.dot G) * s ^ 2 + 2 * f1.dot G * s + (f0.dot G + (f2.dot G + nsq G / 2)) = 0 := by
        rw [hroots]
        set D := f2.dot G + nsq G / 2 - f0.dot G with hDdef
        set a := f1.dot G / D with ha
        set b := (f2.dot G + nsq G / 2 + f0.dot G) / D with hb
        have hs := Real.mul_self_sqrt (not_lt.mp hneg)
        have ha' : f1.dot G = a * D := by rw [ha]; field_simp
        have hb' : f0.dot G + (f2.dot G + nsq G / 2) = b * D := by rw [hb]; field_simp; ring
        rcases hpick with rfl | rfl
        · refine ⟨_, rfl, ?_⟩
          rw [hb', ha']
          linear_combination D * hs
        · refine ⟨_, rfl, ?_⟩
          rw [hb', ha']
          linear_combination D * hs
      obtain ⟨s, hs1, hs2⟩ := key
      have ht : t * dω = 2 * Real.arctan s := by
        rw [hs1] at h1
        simp only [laueTime, Fl.arctan_fin, Fl.mul_fin, Fl.div_fin_ne hd.ne', Fl.fin.injEq] at h1
        rw [← h1]; field_simp
      refine ⟨?_, h2, h3, s, hs1, ht⟩
      rw [ht]
      exact (half_angle s _ _ _).mpr hs2

/-- Every root of the Laue equation in `[0,1]` is found by one of the branches, when the quadratic does not
degenerate. -/
theorem branch_complete {f0 f1 f2 G : V3} {dω t : ℝ} (hd : 0 < dω) (hd2 : dω < Real.pi)
    (hD : f2.dot G + nsq G / 2 - f0.dot G ≠ 0) (h0 : 0 ≤ t) (h1 : t ≤ 1)
    (h : f0.dot G * Real.cos (t * dω) + f1.dot G * Real.sin (t * dω) + (f2.dot G + nsq G / 2) = 0) :
    keepTime (laueTime (laueRoots f0 f1 f2 G).1 dω) = some t ∨
    keepTime (laueTime (laueRoots f0 f1 f2 G).2 dω) = some t := by
  set s := Real.tan (t * dω / 2) with hs
  have hlt : t * dω / 2 < Real.pi / 2 := by nlinarith
  have hge : 0 ≤ t * dω / 2 := by positivity
  have hat : Real.arctan s = t * dω / 2 := Real.arctan_tan (by linarith [Real.pi_pos]) hlt
  have hθ : t * dω = 2 * Real.arctan s := by rw [hat]; ring
  rw [hθ] at h
  have hq := (half_angle s _ _ _).mp h
  have hroots := laueRoots_ne (f1 := f1) hD
  simp only at hroots
  set D := f2.dot G + nsq G / 2 - f0.dot G with hDdef
  set a := f1.dot G / D with ha
  set b := (f2.dot G + nsq G / 2 + f0.dot G) / D with hb
  have ha' : f1.dot G = a * D := by rw [ha]; field_simp
  have hb' : f0.dot G + (f2.dot G + nsq G / 2) = b * D := by rw [hb]; field_simp; ring
  rw [hb', ha'] at hq
  have hq2 : D * ((s + a) ^ 2 - (a * a - b)) = 0 := by linear_combination hq
  have hq3 : (s + a) ^ 2 = a * a - b := by
    rcases mul_eq_zero.mp hq2 with h | h
    · exact absurd h hD
    · linarith
  have hdisc : ¬ a * a - b < 0 := by rw [← hq3]; exact not_lt.mpr (sq_nonneg _)
  rw [if_neg hdisc] at hroots
  have htime : laueTime (fin s) dω = fin t := by
    simp only [laueTime, Fl.arctan_fin, Fl.mul_fin, Fl.div_fin_ne hd.ne']
    rw [← hθ]; congr 1; field_simp
  have hk : keepTime (laueTime (fin s) dω) = some t := keepTime_eq.mpr ⟨htime, h0, h1⟩
  have hsq : Real.sqrt (a * a - b) = |s + a| := by rw [← hq3]; exact Real.sqrt_sq_eq_abs _
  rcases le_total 0 (s + a) with hpos | hpos
  · left
    rw [hroots]; simp only
    rw [hsq, abs_of_nonneg hpos, show -a + (s + a) = s from by ring]; exact hk
  · right
    rw [hroots]; simp only
    rw [hsq, abs_of_nonpos hpos, show -a - -(s + a) = s from by ring]; exact hk

end XRD
