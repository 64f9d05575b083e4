import Verif.Lemmas.Mag
import Verif.Lemmas.FloatGeom
import Mathlib.Tactic.Linarith

/-! Explicit bounds for the geometry of an edge: centroids, lengths, normals, areas, integration points. -/

set_option autoImplicit false

namespace Meshless

namespace Mg
variable {f : Fmt} {s : Units} {x y z : Mg} {A B : Flo} {a b : ℝ}

theorem sqrt_sum_sub {p q r a b c D : ℝ} (h1 : |a - p| ≤ D) (h2 : |b - q| ≤ D) (h3 : |c - r| ≤ D) :
    Real.sqrt (a * a + b * b + c * c) ≤ Real.sqrt (p * p + q * q + r * r) + 2 * D := by
  have hD : 0 ≤ D := (abs_nonneg _).trans h1
  set N := Real.sqrt (p * p + q * q + r * r) with hN
  have n0 : 0 ≤ N := Real.sqrt_nonneg _
  have n2 : N * N = p * p + q * q + r * r := Real.mul_self_sqrt (by nlinarith [mul_self_nonneg p, mul_self_nonneg q, mul_self_nonneg r])
  have n3 : |p| + |q| + |r| ≤ 2 * N := by
    apply le_of_sq_le_sq _ (by positivity)
    have e1 := abs_mul_abs_self p; have e2 := abs_mul_abs_self q; have e3 := abs_mul_abs_self r
    nlinarith [mul_self_nonneg (|p| - |q|), mul_self_nonneg (|p| - |r|), mul_self_nonneg (|q| - |r|), mul_self_nonneg (|p|), mul_self_nonneg (|q|), mul_self_nonneg (|r|)]
  have key : ∀ {u v : ℝ}, |u - v| ≤ D → u * u ≤ v * v + 2 * D * |v| + D * D := by
    intro u v h
    have e : u * u = v * v + 2 * (v * (u - v)) + (u - v) * (u - v) := by ring
    have h4 : v * (u - v) ≤ |v| * D := (le_abs_self _).trans (by rw [abs_mul]; exact mul_le_mul_of_nonneg_left h (abs_nonneg _))
    have h5 : (u - v) * (u - v) ≤ D * D := by
      rw [← abs_mul_abs_self (u - v)]; exact mul_le_mul h h (abs_nonneg _) hD
    rw [e]; linarith
  apply Real.sqrt_le_iff.2
  refine ⟨by positivity, ?_⟩
  have k1 := key h1; have k2 := key h2; have k3 := key h3
  nlinarith

theorem abs_sqrt_sum_sub {p q r a b c D : ℝ} (h1 : |a - p| ≤ D) (h2 : |b - q| ≤ D) (h3 : |c - r| ≤ D) :
    |Real.sqrt (a * a + b * b + c * c) - Real.sqrt (p * p + q * q + r * r)| ≤ 2 * D := by
  rw [abs_le]
  have e1 := sqrt_sum_sub h1 h2 h3
  have e2 := sqrt_sum_sub (a := p) (b := q) (c := r) (p := a) (q := b) (r := c) (D := D) (by rwa [abs_sub_comm]) (by rwa [abs_sub_comm]) (by rwa [abs_sub_comm])
  constructor <;> linarith

/-- bounds of a sum of squares of numbers given exactly -/
def sq (x z : Mg) : Mg :=
  let v := inp x.g (x.m + x.e / 2 ^ 53)
  let w := inp x.g (z.m + z.e / 2 ^ 53)
  (v * v + v * v) + w * w

/-- bounds of a norm, at most `up` and at least `l` -/
def nrm (up l : ℚ) (x z : Mg) : Mg :=
  { rd x.g up ((sq x z).e / (l * (1023 / 1024)) + 2 * max x.e z.e)
      (x.ok && z.ok && (sq x z).ok && decide (x.g = z.g) && decide (0 < l) && decide (2 * max x.e z.e ≤ 2 ^ 43 * l) &&
        decide ((sq x z).e ≤ 2 ^ 53 * (l * (1023 / 1024)) ^ 2)) with lo := l }

theorem Has.vnorm (hf : Spec.Double f) {V : FVec} {p : Vec3} {up l : ℚ} (hX : x.Has s V.x p.x) (hY : x.Has s V.y p.y) (hZ : z.Has s V.z p.z)
    (h1 : p.norm ≤ s.U x.g * up) (h2 : s.U x.g * l ≤ p.norm) : (nrm up l x z).Has s (f.vnorm V) p.norm := by
  intro hk
  have hk' := hk
  simp only [nrm, rd, Bool.and_eq_true, decide_eq_true_eq] at hk'
  obtain ⟨⟨⟨⟨⟨⟨⟨⟨⟨kx, kz⟩, ks⟩, kg⟩, kl⟩, kD⟩, kq⟩, _⟩, _⟩, _⟩ := hk'
  have hm := (hX kx).m_nonneg
  have he := (hX kx).e_nonneg
  obtain ⟨vx, ex, x1, x2, _⟩ := hX kx
  obtain ⟨vy, ey, y1, y2, _⟩ := hY kx
  obtain ⟨vz, ez, z1, z2, _⟩ := hZ kz
  rw [← kg] at z1 z2
  have hU := s.U_pos x.g
  have hE := u64_pos
  rw [AccV.norm_sq] at h1 h2 ⊢
  have size : ∀ {v w : ℝ} {g : Mg}, |w| ≤ s.U x.g * g.m → |v - w| ≤ u64 * (s.U x.g * g.e) → |v| ≤ s.U x.g * ((g.m + g.e / 2 ^ 53 : ℚ) : ℝ) := by
    intro v w g a b
    calc |v| = |w + (v - w)| := by congr 1; ring
      _ ≤ |w| + |v - w| := abs_add_le _ _
      _ ≤ s.U x.g * g.m + u64 * (s.U x.g * g.e) := add_le_add a b
      _ = _ := by rw [u64_eq]; push_cast; ring
  have sx : (Mg.inp x.g (x.m + x.e / 2 ^ 53)).Has s (.fin vx) vx := Has.inp (size x1 x2)
  have sy : (Mg.inp x.g (x.m + x.e / 2 ^ 53)).Has s (.fin vy) vy := Has.inp (size y1 y2)
  have sz : (Mg.inp x.g (z.m + z.e / 2 ^ 53)).Has s (.fin vz) vz := Has.inp (size z1 z2)
  have hs : (sq x z).Has s (f.add (f.add (f.mul (.fin vx) (.fin vx)) (f.mul (.fin vy) (.fin vy))) (f.mul (.fin vz) (.fin vz))) (vx * vx + vy * vy + vz * vz) :=
    ((sx.mul hf sx).add hf (sy.mul hf sy)).add hf (sz.mul hf sz)
  obtain ⟨q, eq, _, q2, _⟩ := hs ks
  have gq : s.U (sq x z).g = s.U x.g * s.U x.g := by
    show s.U (x.g + x.g) = _
    exact s.U_add _ _
  rw [gq] at q2
  have hl : 0 < (l:ℝ) := by exact_mod_cast kl
  have hD' : (2:ℝ) * max (x.e:ℝ) z.e ≤ 2 ^ 43 * l := by exact_mod_cast kD
  have hq' : ((sq x z).e:ℝ) ≤ 2 ^ 53 * (l * (1023 / 1024)) ^ 2 := by
    have := (Rat.cast_le (K := ℝ)).2 kq
    push_cast at this
    exact this
  set U := s.U x.g with hUdef
  set D := max (x.e:ℝ) z.e with hDdef
  have dx : |vx - p.x| ≤ u64 * (U * D) := x2.trans (by gcongr; exact le_max_left _ _)
  have dy : |vy - p.y| ≤ u64 * (U * D) := y2.trans (by gcongr; exact le_max_left _ _)
  have dz : |vz - p.z| ≤ u64 * (U * D) := z2.trans (by gcongr; exact le_max_right _ _)
  have hn := abs_sqrt_sum_sub dx dy dz
  set S := vx * vx + vy * vy + vz * vz with hS
  set N := Real.sqrt (p.x * p.x + p.y * p.y + p.z * p.z) with hN
  have S0 : 0 ≤ S := by rw [hS]; nlinarith [mul_self_nonneg vx, mul_self_nonneg vy, mul_self_nonneg vz]
  have low : U * (l * (1023 / 1024)) ≤ Real.sqrt S := by
    have e1 : 2 * (u64 * (U * D)) ≤ U * (l / 1024) := by
      calc 2 * (u64 * (U * D)) = U * (u64 * (2 * D)) := by ring
        _ ≤ U * (u64 * (2 ^ 43 * l)) := by gcongr
        _ = _ := by rw [u64_eq]; ring
    have := (abs_le.1 hn).1
    linarith
  have lp : 0 < U * ((l:ℝ) * (1023 / 1024)) := by positivity
  have Sp := lp.trans_le low
  have qS : |q - S| ≤ u64 * (U * U * (sq x z).e) := q2
  have q0 : 0 ≤ q := by
    have e1 : u64 * (U * U * (sq x z).e) ≤ (U * (l * (1023 / 1024))) ^ 2 := by
      calc u64 * (U * U * ((sq x z).e:ℝ)) ≤ u64 * (U * U * (2 ^ 53 * (l * (1023 / 1024)) ^ 2)) := by gcongr
        _ = _ := by rw [u64_eq]; ring
    have e2 : (U * ((l:ℝ) * (1023 / 1024))) ^ 2 ≤ S := by
      calc (U * ((l:ℝ) * (1023 / 1024))) ^ 2 ≤ (Real.sqrt S) ^ 2 := by gcongr
        _ = S := Real.sq_sqrt S0
    have := (abs_le.1 qS).1
    linarith
  have r1 : |Real.sqrt q - Real.sqrt S| ≤ u64 * (U * ((sq x z).e / (l * (1023 / 1024)))) := by
    have e1 : (Real.sqrt q - Real.sqrt S) * (Real.sqrt q + Real.sqrt S) = q - S := by
      have a1 := Real.mul_self_sqrt q0; have a2 := Real.mul_self_sqrt S0
      linear_combination a1 - a2
    have e2 : U * (l * (1023 / 1024)) ≤ Real.sqrt q + Real.sqrt S := low.trans (le_add_of_nonneg_left (Real.sqrt_nonneg _))
    have e3 : |Real.sqrt q - Real.sqrt S| * (U * (l * (1023 / 1024))) ≤ |q - S| := by
      rw [← e1, abs_mul, abs_of_pos (lp.trans_le e2)]
      exact mul_le_mul_of_nonneg_left e2 (abs_nonneg _)
    rw [← mul_le_mul_iff_left₀ lp]
    refine e3.trans (qS.trans_eq ?_)
    field_simp
  unfold Fmt.vnorm
  rw [ex, ey, ez, eq]
  simp only [Fmt.sqrt]
  rw [if_neg (not_lt.2 q0)]
  have fin : (rd x.g up ((sq x z).e / (l * (1023 / 1024)) + 2 * max x.e z.e)
      (x.ok && z.ok && (sq x z).ok && decide (x.g = z.g) && decide (0 < l) && decide (2 * max x.e z.e ≤ 2 ^ 43 * l) &&
        decide ((sq x z).e ≤ 2 ^ 53 * (l * (1023 / 1024)) ^ 2))).Is s (f.rnd (Real.sqrt q)) N := by
    refine rnd_is hf hk ?_ ?_
    · rwa [abs_of_nonneg (Real.sqrt_nonneg _)]
    · calc |Real.sqrt q - N| = |(Real.sqrt q - Real.sqrt S) + (Real.sqrt S - N)| := by congr 1; ring
        _ ≤ _ := abs_add_le _ _
        _ ≤ u64 * (U * ((sq x z).e / (l * (1023 / 1024)))) + 2 * (u64 * (U * D)) := add_le_add r1 hn
        _ = _ := by push_cast; ring
  obtain ⟨v, h3, h4, h5, _⟩ := fin
  exact ⟨v, h3, h4, h5, by show U * (l:ℝ) ≤ |N|; rwa [abs_of_nonneg (Real.sqrt_nonneg _)]⟩

theorem add_comm' (h : x.g = y.g) : x + y = y + x := by
  show rd x.g (x.m + y.m) (x.e + y.e) (x.ok && y.ok && decide (x.g = y.g)) = rd y.g (y.m + x.m) (y.e + x.e) (y.ok && x.ok && decide (y.g = x.g))
  rw [add_comm x.m, add_comm x.e, h, Bool.and_comm x.ok]

theorem Has.sub' (hf : Spec.Double f) (hg : x.g = y.g) (h : x.Has s A a) (g : y.Has s B b) : (y - x).Has s (f.sub A B) (a - b) := by
  have e : y - x = x - y := add_comm' hg.symm
  rw [e]; exact h.sub hf g

/-- a positive constant -/
def cst (c : ℚ) : Mg := ⟨⟨0, 0, 0, 0⟩, c, 0, c, true⟩

theorem U_zero : s.U ⟨0, 0, 0, 0⟩ = 1 := by simp [Units.U]

theorem Has.cst {c : ℚ} (h : 0 ≤ c) : (cst c).Has s (.fin c) c := by
  intro _
  have h' : (0:ℝ) ≤ c := by exact_mod_cast h
  refine ⟨c, rfl, ?_, by simp [Mg.cst], ?_⟩ <;> simp [Mg.cst, U_zero, abs_of_nonneg h']

end Mg

end Meshless
