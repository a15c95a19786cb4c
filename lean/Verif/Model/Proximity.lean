import Verif.Model.Beam
import Verif.Model.Detector

/-! Model of `/repo/xrd_simulator/beam.py`, part 2: `_get_candidate_spheres` (beam.py:302-364) and
`_get_proximity_intervals` (beam.py:373-450). -/

namespace XRD.Proximity
open V3 M3
open Classical

/-- `torch.min` of the radii -/
noncomputable def minRadius : List ℝ → ℝ
  | [] => 0
  | r :: rs => rs.foldl min r

/-- `number_of_sampling_points` (beam.py:336-349): largest of translation over half the smallest radius, rotation in degrees and
2; plus one, cut to an integer.  Radii are taken positive. -/
noncomputable def sampleCount (m : Motion) (radii : List ℝ) : ℕ :=
  let dx := minRadius radii / 2
  let tr := max (max |m.translation.x / dx| |m.translation.y / dx|) |m.translation.z / dx|
  (Detector.pyInt (max (max tr (m.angle * 180 / Real.pi)) 2 + 1)).toNat

/-- `torch.linspace(0, 1, n)[i]` (beam.py:350) -/
noncomputable def sampleTime (n i : ℕ) : ℝ := (i : ℝ) / ((n : ℝ) - 1)

/-- entry `[i, j]` of the returned mask for the sphere `(c, r)` and the time `t` of sample `i` (beam.py:352-364).  `hullEq` is
`np.unique(ConvexHull(points).equations.round(6))`, `inv` the inverse motion. -/
noncomputable def candidate (hullEq : List V3 → List HalfSpace) (b : Beam) (inv : Motion) (t : ℝ) (c : V3) (r : ℝ) : Bool :=
  !(hullEq (b.vertices.map fun v => inv.call1 v t)).any fun e => decide (e.n.dot c + e.d > r)

/-- `_get_candidate_spheres` (beam.py:302-364): the mask of every sphere, as a list over sample times, and the sample times -/
noncomputable def candidateSpheres (hullEq : List V3 → List HalfSpace) (b : Beam) (m : Motion) (spheres : List (V3 × ℝ)) :
    Except PyErr (List (List Bool) × List ℝ) :=
  match m.inverse with
  | .error e => .error e
  | .ok inv =>
    let n := sampleCount m (spheres.map Prod.snd)
    let times := (List.range n).map (sampleTime n)
    .ok (spheres.map fun s => times.map fun t => candidate hullEq b inv t s.1 s.2, times)

/-- replace the end of the last interval; intervals are kept last first -/
def setEnd (t : ℝ) : List (ℝ × ℝ) → List (ℝ × ℝ)
  | [] => []
  | p :: ps => (p.1, t) :: ps

/-- `i = 0` (beam.py:426-429) -/
def firstStep (mask : ℕ → Bool) (time : ℕ → ℝ) : Bool × List (ℝ × ℝ) :=
  if mask 0 then (true, [(time 0, time 1)]) else (false, [])

/-- one pass of the loop over the middle samples (beam.py:431-439) -/
def midStep (mask : ℕ → Bool) (time : ℕ → ℝ) (st : Bool × List (ℝ × ℝ)) (i : ℕ) : Bool × List (ℝ × ℝ) :=
  if mask i && !st.1 then (true, (time (i - 1), time (i + 1)) :: st.2)
  else if !mask i && st.1 then (false, setEnd (time (i + 1)) st.2)
  else st

/-- the last sample (beam.py:441-445) -/
def lastStep (mask : ℕ → Bool) (time : ℕ → ℝ) (n : ℕ) (st : Bool × List (ℝ × ℝ)) : List (ℝ × ℝ) :=
  if mask (n - 1) && !st.1 then (time (n - 2), time (n - 1)) :: st.2
  else if mask (n - 1) && st.1 then setEnd (time (n - 1)) st.2
  else st.2

/-- the intervals of one sphere (beam.py:417-447); `none` is the code's `[None]` -/
def intervals (n : ℕ) (mask : ℕ → Bool) (time : ℕ → ℝ) : Option (List (ℝ × ℝ)) :=
  if (List.range n).all fun i => !mask i then none
  else some (lastStep mask time n ((List.range (n - 2)).foldl (fun st k => midStep mask time st (k + 1)) (firstStep mask time))).reverse

/-- `_get_proximity_intervals` (beam.py:373-450); `sample_times[i]` is `sampleTime n i` for `n` samples -/
noncomputable def proximityIntervals (hullEq : List V3 → List HalfSpace) (b : Beam) (m : Motion) (spheres : List (V3 × ℝ)) :
    Except PyErr (List (Option (List (ℝ × ℝ)))) :=
  match candidateSpheres hullEq b m spheres with
  | .error e => .error e
  | .ok (masks, times) => .ok (masks.map fun mask => intervals times.length (fun i => mask.getD i false) (sampleTime times.length))

end XRD.Proximity
