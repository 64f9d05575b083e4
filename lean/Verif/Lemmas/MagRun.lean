import Verif.Lemmas.MagEnv
import Verif.Lemmas.IeeeNanRun
import Verif.Lemmas.Energy

/-! `calc_k0` in formats like float64 with explicit bounds: the edges. -/

set_option autoImplicit false

namespace Meshless
open Spec Mg

variable {f : Fmt} {s : Units} {σ G : ℚ}

/-- a triangle of a planar mesh at one of its sides -/
theorem triAt_of (hf : Spec.Double f) {m : Mesh} (hg : Planar m) {t o : ℕ} {k : Key} (hs : Side m t k o) (h : FitsAt m σ G s.l t) :
    TriAt f s σ G m t k.1 k.2 := by
  have c1 : IsCorner m t k.1 := (hs.corner_iff _).2 (Or.inl rfl)
  have c2 : IsCorner m t k.2 := (hs.corner_iff _).2 (Or.inr (Or.inl rfl))
  have c3 : IsCorner m t o := (hs.corner_iff _).2 (Or.inr (Or.inr rfl))
  have hin : ∀ i, IsCorner m t i → i ∈ m.nids := fun i hi => by
    rcases (hs.corner_iff i).1 hi with rfl | rfl | rfl
    exacts [hs.ina, hs.inb, hs.ino]
  obtain ⟨m1, m2, m3⟩ := mid_eq hg.basic hs
  have hcd : ∀ i, IsCorner m t i → |nx m i| ≤ s.l * G ∧ |ny m i| ≤ s.l * G ∧ |(m.node i).xyz.z| ≤ s.l * G := fun i hi => by
    have := h.coord i hi; rw [mul_comm (s.l)]; exact this
  have t3 : ∀ {x y z b : ℝ}, |x| ≤ b → |y| ≤ b → |z| ≤ b → |(x + y + z) / 3| ≤ b := fun {x y z b} hx hy hz => by
    rw [abs_le] at *; constructor <;> linarith [hx.1, hx.2, hy.1, hy.2, hz.1, hz.2]
  have hm : HasV s (gM G) (gM G) (f.mid m t) (m.mid t) := by
    refine mid_has hf fun i hi => ?_
    have e : m.pos i = (m.node i).xyz := hg.basic i (hin i hi)
    rw [e]; exact hcd i hi
  refine ⟨⟨hcd _ c1, hcd _ c2, ?_, h.near _ _ c1 c2, ?_, ?_, ?_, ?_⟩, hm⟩
  · rw [m1, m2, m3]
    exact ⟨t3 (hcd _ c1).1 (hcd _ c2).1 (hcd _ c3).1, t3 (hcd _ c1).2.1 (hcd _ c2).2.1 (hcd _ c3).2.1, t3 (hcd _ c1).2.2 (hcd _ c2).2.2 (hcd _ c3).2.2⟩
  · rw [m1, m2]
    have x := h.near _ _ c1 c2
    have y := h.near _ _ c1 c3
    simp only [nx, ny, abs_le] at *
    refine ⟨⟨?_, ?_⟩, ?_, ?_⟩ <;> linarith [x.1.1, x.1.2, x.2.1, x.2.2, y.1.1, y.1.2, y.2.1, y.2.2]
  · rw [m1, m2]
    have x := h.near _ _ c2 c1
    have y := h.near _ _ c2 c3
    simp only [nx, ny, abs_le] at *
    refine ⟨⟨?_, ?_⟩, ?_, ?_⟩ <;> linarith [x.1.1, x.1.2, x.2.1, x.2.2, y.1.1, y.1.2, y.2.1, y.2.2]
  · rw [m3]
    have e1 := hg.flat _ hs.ina _ hs.inb
    have e2 := hg.flat _ hs.ina _ hs.ino
    constructor <;> linarith
  · have e1 := triArea_side hs
    rw [sarea3, mean_corners hs, mean_corners hs] at e1
    simp only [mean_single] at e1
    have e2 : |((m.mid t).x - (m.node k.2).xyz.x) * ((m.node k.1).xyz.y - (m.node k.2).xyz.y) - ((m.mid t).y - (m.node k.2).xyz.y) * ((m.node k.1).xyz.x - (m.node k.2).xyz.x)| =
        2 * (triArea m t / 3) := by
      rw [← e1, m1, m2, ← abs_of_pos (show (0:ℝ) < 2 by norm_num), ← abs_mul, abs_of_pos (show (0:ℝ) < 2 by norm_num)]
      congr 1
      simp only [nx, ny]; ring
    rw [e2]
    have := h.area
    nlinarith [this]

theorem triArea_up {m : Mesh} {t : ℕ} {l : ℝ} (h : FitsAt m σ G l t) : triArea m t ≤ l ^ 2 := by
  have n12 := h.near _ _ (Or.inl rfl) (Or.inr (Or.inl rfl))
  have n13 := h.near _ _ (Or.inl rfl) (Or.inr (Or.inr rfl))
  unfold triArea
  rw [sarea3]
  simp only [mean_single]
  have hl : 0 ≤ l := (abs_nonneg _).trans n12.1
  rw [abs_div, abs_of_pos (show (0:ℝ) < 2 by norm_num), div_le_iff₀ two_pos]
  refine (abs_sub _ _).trans ?_
  rw [abs_mul, abs_mul]
  have e1 : |nx m (m.tria t).n2 - nx m (m.tria t).n1| * |ny m (m.tria t).n3 - ny m (m.tria t).n1| ≤ l * l :=
    mul_le_mul (by rw [abs_sub_comm]; exact n12.1) (by rw [abs_sub_comm]; exact n13.2) (abs_nonneg _) hl
  have e2 : |nx m (m.tria t).n3 - nx m (m.tria t).n1| * |ny m (m.tria t).n2 - ny m (m.tria t).n1| ≤ l * l :=
    mul_le_mul (by rw [abs_sub_comm]; exact n13.1) (by rw [abs_sub_comm]; exact n12.2) (abs_nonneg _) hl
  nlinarith [e1, e2]

/-- the numbers of an edge -/
theorem geo_has (hf : Spec.Double f) (hσ : 0 < σ) (hk0 : okOr σ G = true) {m : Mesh} (w : WF m) (hp : Proper m) (hg : Planar m) (hq : Prepared m) {pn : Bool} (hh : HasProps m pn)
    {k : Key} (hk : k ∈ m.ekeys) (ht : ∀ t ∈ (m.edge k).trias, FitsAt m σ G s.l t) :
    HasGeo s σ G (f.geo m (m.edge k)) (m.edge k) ∧ ∀ t ∈ (m.edge k).trias, TriAt f s σ G m t k.1 k.2 := by
  obtain ⟨_, Ac, _, hd, _, hgeo, _, hsum, _⟩ := edgeGeoP w hp hg hq hh hk
  have hAc := hd.hAc
  have hl : 0 < s.l := lt_of_lt_of_le (by positivity) s.hl.1
  have hσ' : (0:ℝ) < σ := by exact_mod_cast hσ
  rcases edge_shape w hp hk with ⟨t, o, h1, h2, h3⟩ | ⟨t1, t2, o1, o2, h1, h2, h3, h4, h5, h6, h7⟩
  · have he : m.edge k = bEdge m k t o := congrArg Prod.fst ((hq.geom k hk).symm.trans (geomEdge_boundary w hk h1 h3 h2.ino))
    have hi := triAt_of hf hg h2 (ht t (by rw [h1]; simp))
    have a1 := (ht t (by rw [h1]; simp)).area
    have a2 := triArea_up (ht t (by rw [h1]; simp))
    rw [h1] at hsum ⊢
    simp only [List.map_cons, List.map_nil, List.sum_cons, List.sum_nil, add_zero] at hsum
    refine ⟨?_, fun t' ht' => by obtain rfl := List.mem_singleton.1 ht'; exact hi⟩
    have hor := orient_has hf hσ hi.tri hi.mid hk0
    have : f.geo m (m.edge k) = f.bGeo m t o (orient m (m.mid t) k.1 k.2) := by rw [he, ← hor]; rfl
    rw [this]
    refine bGeo_has hf hσ ?_ he hAc (by rw [hsum]; nlinarith) (by rw [hsum]; nlinarith [sq_nonneg s.l])
    rcases orient_cases m (m.mid t) k.1 k.2 with h | h <;> rw [h]
    · exact hi
    · exact hi.swap
  · have he : m.edge k = iEdge m k t1 t2 o1 o2 := congrArg Prod.fst ((hq.geom k hk).symm.trans (geomEdge_interior w hk h1 h6 h2.ino h7 h3.ino))
    have hi1 := triAt_of hf hg h2 (ht t1 (by rw [h1]; simp))
    have hi2 := triAt_of hf hg h3 (ht t2 (by rw [h1]; simp))
    have a1 := (ht t1 (by rw [h1]; simp)).area
    have a2 := triArea_up (ht t1 (by rw [h1]; simp))
    have b1 := (ht t2 (by rw [h1]; simp)).area
    have b2 := triArea_up (ht t2 (by rw [h1]; simp))
    rw [h1] at hsum ⊢
    simp only [List.map_cons, List.map_nil, List.sum_cons, List.sum_nil, add_zero] at hsum
    have hpos : 0 < (σ:ℝ) * s.l ^ 2 := by positivity
    refine ⟨?_, fun t' ht' => by
      simp only [List.mem_cons, List.not_mem_nil, or_false] at ht'
      rcases ht' with rfl | rfl
      exacts [hi1, hi2]⟩
    have hor := orient_has hf hσ hi1.tri hi1.mid hk0
    have : f.geo m (m.edge k) = f.iGeo m t1 t2 o1 o2 (orient m (m.mid t1) k.1 k.2) := by rw [he, ← hor]; rfl
    rw [this]
    refine iGeo_has hf hσ ?_ ?_ he hAc (by rw [hsum]; nlinarith) (by rw [hsum]; nlinarith [sq_nonneg s.l])
    · rcases orient_cases m (m.mid t1) k.1 k.2 with h | h <;> rw [h]
      · exact hi1
      · exact hi1.swap
    · rcases orient_cases m (m.mid t1) k.1 k.2 with h | h <;> rw [h]
      · exact hi2
      · exact hi2.swap

theorem ofProp_upTo {sel : Lam → ℝ} {P : ℝ} (h0 : 0 ≤ P) {x : Option Lam} (h : ∀ p, x = some p → |sel p| ≤ P) : |ofProp sel x| ≤ P := by
  rcases x with _ | p
  · simpa [ofProp] using h0
  · exact h p rfl

theorem div3_le {x y z b : ℝ} (hx : |x| ≤ b) (hy : |y| ≤ b) (hz : |z| ≤ b) : |(x + y + z) / 3| ≤ b := by
  rw [abs_le] at *; constructor <;> linarith [hx.1, hx.2, hy.1, hy.2, hz.1, hz.2]

/-- averages of bounded numbers -/
theorem avg_le {m : Mesh} (w : WF m) (hp : Proper m) (hg : Planar m) {pn : Bool} {k : Key} (hk : k ∈ m.ekeys) {sel : Lam → ℝ} {P : ℝ} (h0 : 0 ≤ P)
    (hn : pn = true → ∀ e ∈ m.eids, ∀ i, IsCorner m e i → ∀ p, (m.node i).prop = some p → |sel p| ≤ P)
    (he : pn = false → ∀ e ∈ m.eids, ∀ p, (m.tria e).prop = some p → |sel p| ≤ P) : |avg m pn k sel| ≤ P := by
  unfold avg
  cases pn
  · simp only [Bool.false_eq_true, if_false]
    have pos : ∀ t ∈ m.eids, 0 < triArea m t := fun t ht => abs_pos.2 (hg.nondeg t ht)
    have bd : ∀ t ∈ m.eids, |ofProp sel (m.tria t).prop| ≤ P := fun t ht => ofProp_upTo h0 (he rfl t ht)
    rcases edge_shape w hp hk with ⟨t, o, h1, h2, h3⟩ | ⟨t1, t2, o1, o2, h1, h2, h3, _⟩
    · rw [h1]
      simp only [List.map_cons, List.map_nil, List.sum_cons, List.sum_nil, add_zero]
      rw [mul_div_cancel_left₀ _ (pos t h2.mem).ne']
      exact bd t h2.mem
    · rw [h1]
      simp only [List.map_cons, List.map_nil, List.sum_cons, List.sum_nil, add_zero]
      have p1 := pos _ h2.mem
      have p2 := pos _ h3.mem
      have b1 := abs_le.1 (bd _ h2.mem)
      have b2 := abs_le.1 (bd _ h3.mem)
      rw [abs_div, abs_of_pos (add_pos p1 p2), div_le_iff₀ (add_pos p1 p2), abs_le]
      constructor <;> nlinarith [b1.1, b1.2, b2.1, b2.2]
  · simp only [if_true]
    have bd : ∀ t ∈ m.eids, ∀ i, IsCorner m t i → |ofProp sel (m.node i).prop| ≤ P := fun t ht i hi => ofProp_upTo h0 (hn rfl t ht i hi)
    rcases edge_shape w hp hk with ⟨t, o, h1, h2, h3⟩ | ⟨t1, t2, o1, o2, h1, h2, h3, _⟩
    · have hdom : dom m k = [[k.1], corners m t, [k.2]] := by simp [Spec.dom, h1]
      rw [hdom]
      simp only [List.map_cons, List.map_nil, List.sum_cons, List.sum_nil, add_zero, List.length_cons, List.length_nil, mean_single, mean_corners h2]
      have b1 := bd _ h2.mem _ ((h2.corner_iff _).2 (Or.inl rfl))
      have b2 := bd _ h2.mem _ ((h2.corner_iff _).2 (Or.inr (Or.inl rfl)))
      have b3 := bd _ h2.mem _ ((h2.corner_iff _).2 (Or.inr (Or.inr rfl)))
      have := div3_le b1 (div3_le b1 b2 b3) b2
      refine le_of_eq_of_le ?_ this
      congr 1; push_cast; ring
    · have hdom : dom m k = [[k.1], corners m t1, [k.2], corners m t2] := by simp [Spec.dom, h1]
      rw [hdom]
      simp only [List.map_cons, List.map_nil, List.sum_cons, List.sum_nil, add_zero, List.length_cons, List.length_nil, mean_single, mean_corners h2, mean_corners h3]
      have b1 := bd _ h2.mem _ ((h2.corner_iff _).2 (Or.inl rfl))
      have b2 := bd _ h2.mem _ ((h2.corner_iff _).2 (Or.inr (Or.inl rfl)))
      have b3 := bd _ h2.mem _ ((h2.corner_iff _).2 (Or.inr (Or.inr rfl)))
      have b4 := bd _ h3.mem _ ((h3.corner_iff _).2 (Or.inr (Or.inr rfl)))
      have c1 := abs_le.1 (div3_le b1 b2 b3)
      have c2 := abs_le.1 (div3_le b1 b2 b4)
      rw [abs_le] at b1 b2 ⊢
      push_cast
      constructor <;> linarith [b1.1, b1.2, b2.1, b2.2, c1.1, c1.2, c2.1, c2.2]

/-- the local variables of `calc_k0` at an edge -/
theorem env_has (hf : Spec.Double f) {p : Prof} (hp0 : p.ok = true) {m : Mesh} (w : WF m) (hp : Proper m) (hg : Planar m) (hq : Prepared m) {pn : Bool} (hh : HasProps m pn)
    {k : Key} (hk : k ∈ m.ekeys) (ht : ∀ t ∈ (m.edge k).trias, FitsAt m p.σ p.G s.l t) (hl : LamsUpTo m pn s.p s.q s.r) {E0 : K0Env ℝ} (hE : k0Env m pn (m.edge k) = .ok E0) :
    ∃ c, f.k0Env m pn (m.edge k) (f.geo m (m.edge k)) = .ok c ∧ HasEnv s p c E0 := by
  have hp1 := hp0
  simp only [Prof.ok, Bool.and_eq_true, decide_eq_true_eq] at hp1
  obtain ⟨⟨⟨⟨⟨⟨⟨⟨⟨hσ, hA0⟩, hL⟩, hN⟩, hdA⟩, hdB⟩, hdD⟩, h0L⟩, h0N⟩, hor⟩ := hp1
  obtain ⟨hgeo, htr⟩ := geo_has hf hσ hor w hp hg hq hh hk ht
  obtain ⟨_, Ac, pm, hd, _, _, hav, _, hpr⟩ := edgeGeoP w hp hg hq hh hk
  have hkk : (m.edge k).n1 = k.1 ∧ (m.edge k).n2 = k.2 ∧ (m.edge k).trias ≠ [] ∧ (∀ t ∈ (m.edge k).trias, t ∈ m.eids) ∧
      ∀ i, (i = (m.edge k).n1 ∨ i = (m.edge k).n2 ∨ (m.edge k).other1 = some i ∨ (m.edge k).other2 = some i) → ∃ t ∈ m.eids, IsCorner m t i := by
    rcases prepared_shape w hp hq hk with ⟨t, o, he, hs⟩ | ⟨t1, t2, o1, o2, he, hs1, hs2, _, _⟩
    · rw [he]
      refine ⟨rfl, rfl, by simp [bEdge], by simpa [bEdge] using hs.mem, fun i hi => ⟨t, hs.mem, (hs.corner_iff i).2 ?_⟩⟩
      rcases hi with hi | hi | hi | hi
      · exact Or.inl hi
      · exact Or.inr (Or.inl hi)
      · exact Or.inr (Or.inr (Option.some.inj hi).symm)
      · simp [bEdge] at hi
    · rw [he]
      refine ⟨rfl, rfl, by simp [iEdge], by simpa [iEdge] using ⟨hs1.mem, hs2.mem⟩, fun i hi => ?_⟩
      rcases hi with hi | hi | hi | hi
      · exact ⟨t1, hs1.mem, (hs1.corner_iff i).2 (Or.inl hi)⟩
      · exact ⟨t1, hs1.mem, (hs1.corner_iff i).2 (Or.inr (Or.inl hi))⟩
      · exact ⟨t1, hs1.mem, (hs1.corner_iff i).2 (Or.inr (Or.inr (Option.some.inj hi).symm))⟩
      · exact ⟨t2, hs2.mem, (hs2.corner_iff i).2 (Or.inr (Or.inr (Option.some.inj hi).symm))⟩
  obtain ⟨hn1, hn2, hne, hte, hno⟩ := hkk
  have main : ∀ (sel : Lam → Fin 3 → Fin 3 → ℝ) (g : Grd), (∀ q : Lam, Lam.UpTo q s.p s.q s.r → ∀ a b, |sel q a b| ≤ s.U g) → (gPr p.σ p.G g).dom (vP p g) = true →
      ∀ A, edgeProp m pn (m.edge k) sel = .ok A → ∃ B, f.edgeProp m pn (m.edge k) (f.geo m (m.edge k)).Ac sel = .ok B ∧ ∀ a b, (vP p g).Has s (B a b) (A a b) := by
    intro sel g hsel hdom A hA
    have u1 : pn = true → ∀ e ∈ m.eids, ∀ i, IsCorner m e i → ∀ p, (m.node i).prop = some p → ∀ a b, |sel p a b| ≤ s.U g := fun hpn e he i hi q hq' a b => by
      unfold LamsUpTo at hl; rw [if_pos hpn] at hl; exact hsel q (hl e he i hi q hq') a b
    have u2 : pn = false → ∀ e ∈ m.eids, ∀ p, (m.tria e).prop = some p → ∀ a b, |sel p a b| ≤ s.U g := fun hpn e he q hq' a b => by
      unfold LamsUpTo at hl; rw [if_neg (by simp [hpn])] at hl; exact hsel q (hl e he q hq') a b
    have hb : ∀ a b, |A a b| ≤ s.U g := fun a b => by
      have : A = fun i j => pm fun l => sel l i j := Except.ok.inj (hA.symm.trans (hpr sel))
      rw [this]
      dsimp only
      rw [hav]
      exact avg_le w hp hg hk (s.U_pos g).le (fun q e he i hi p hp' => u1 q e he i hi p hp' a b) (fun q e he p hp' => u2 q e he p hp' a b)
    obtain ⟨B, b1, b2⟩ := edgeProp_mag hf hgeo (by rw [hn1, hn2]; exact htr) hne sel
      (fun i hi q hq' hpn a b => by obtain ⟨t, ht', hc⟩ := hno i hi; exact u1 hpn t ht' i hc q hq' a b)
      (fun t ht' q hq' hpn a b => u2 hpn t (hte t ht') q hq' a b) hA hb
    exact ⟨B, b1, fun a b => (b2 a b).dom hdom⟩
  refine k0Env_has hp0 hgeo (main Lam.A grA ?_ hdA) (main Lam.B grB ?_ hdB) (main Lam.D grD ?_ hdD) hE
  · intro q hq' a b; simpa [Units.U, grA] using (hq' a b).1
  · intro q hq' a b; simpa [Units.U, grB] using (hq' a b).2.1
  · intro q hq' a b; simpa [Units.U, grD] using (hq' a b).2.2

end Meshless
