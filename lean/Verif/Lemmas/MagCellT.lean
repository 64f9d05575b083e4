import Verif.Lemmas.MagCellSum
import Verif.Lemmas.MagCellS
import Verif.Lemmas.MagPts

/-! The local variables of `add_k0s` for a triangle, with explicit bounds (cell-based). -/

set_option autoImplicit false

namespace Meshless
open Spec Mg

variable {f : Fmt} {s : Units} {σ G : ℚ}

theorem Spec.FitsAt.sized {m : Mesh} {σ G l : ℝ} {t : ℕ} (h : FitsAt m σ G l t) : SizedAt m σ l t := ⟨h.near, h.area⟩

section
variable {m : Mesh} {e : ℕ}

theorem Cell.mid_at (h : Cell s σ m e) {a b c : ℕ} (hp : [a, b, c].Perm (corners m e)) :
    (m.mid e).x = ((m.node a).xyz.x + (m.node b).xyz.x + (m.node c).xyz.x) / 3 ∧ (m.mid e).y = ((m.node a).xyz.y + (m.node b).xyz.y + (m.node c).xyz.y) / 3 ∧
      (m.mid e).z = (m.node a).xyz.z := by
  have c1 : IsCorner m e (m.tria e).n1 := Or.inl rfl
  have c2 : IsCorner m e (m.tria e).n2 := Or.inr (Or.inl rfl)
  have c3 : IsCorner m e (m.tria e).n3 := Or.inr (Or.inr rfl)
  have e1 : m.pos (m.tria e).n1 = (m.node (m.tria e).n1).xyz := h.flat.basic _ (h.corner_mem c1)
  have e2 : m.pos (m.tria e).n2 = (m.node (m.tria e).n2).xyz := h.flat.basic _ (h.corner_mem c2)
  have e3 : m.pos (m.tria e).n3 = (m.node (m.tria e).n3).xyz := h.flat.basic _ (h.corner_mem c3)
  have ca : IsCorner m e a := mem_corners_iff.1 (hp.mem_iff.1 (by simp))
  have sum : ∀ g : ℕ → ℝ, g a + g b + g c = g (m.tria e).n1 + g (m.tria e).n2 + g (m.tria e).n3 := fun g => by
    have := (hp.map g).sum_eq
    simp only [corners, List.map_cons, List.map_nil, List.sum_cons, List.sum_nil] at this
    linarith
  have z1 := h.flat.flat _ (h.corner_mem c1) _ (h.corner_mem ca)
  have z2 := h.flat.flat _ (h.corner_mem c2) _ (h.corner_mem ca)
  have z3 := h.flat.flat _ (h.corner_mem c3) _ (h.corner_mem ca)
  have sx := sum fun i => (m.node i).xyz.x
  have sy := sum fun i => (m.node i).xyz.y
  unfold Mesh.mid
  dsimp only
  rw [e1, e2, e3]
  refine ⟨?_, ?_, ?_⟩
  · rw [sx]
  · rw [sy]
  · rw [z1, z2, z3]; ring

theorem Cell.tri (h : Cell s σ m e) (hg : FitsAt m σ G s.l e) {a b c : ℕ} (hp : [a, b, c].Perm (corners m e)) (ha : |sarea m [[a], [b], [c]]| = triArea m e) :
    Tri s σ G (m.node a).xyz (m.node b).xyz (m.mid e) := by
  obtain ⟨m1, m2, m3⟩ := h.mid_at hp
  have ca : IsCorner m e a := mem_corners_iff.1 (hp.mem_iff.1 (by simp))
  have cb : IsCorner m e b := mem_corners_iff.1 (hp.mem_iff.1 (by simp))
  have cc : IsCorner m e c := mem_corners_iff.1 (hp.mem_iff.1 (by simp))
  have hcd : ∀ i, IsCorner m e i → |nx m i| ≤ s.l * G ∧ |ny m i| ≤ s.l * G ∧ |(m.node i).xyz.z| ≤ s.l * G := fun i hi => by
    have := hg.coord i hi; rw [mul_comm (s.l)]; exact this
  have t3 : ∀ {x y z b : ℝ}, |x| ≤ b → |y| ≤ b → |z| ≤ b → |(x + y + z) / 3| ≤ b := fun {x y z b} hx hy hz => by
    rw [abs_le] at *; constructor <;> linarith [hx.1, hx.2, hy.1, hy.2, hz.1, hz.2]
  refine ⟨hcd _ ca, hcd _ cb, ?_, hg.near _ _ ca cb, ?_, ?_, ?_, ?_⟩
  · rw [m1, m2, m3]
    exact ⟨t3 (hcd _ ca).1 (hcd _ cb).1 (hcd _ cc).1, t3 (hcd _ ca).2.1 (hcd _ cb).2.1 (hcd _ cc).2.1, (hcd _ ca).2.2⟩
  · rw [m1, m2]
    have x := hg.near _ _ ca cb
    have y := hg.near _ _ ca cc
    simp only [nx, ny, abs_le] at *
    refine ⟨⟨?_, ?_⟩, ?_, ?_⟩ <;> linarith [x.1.1, x.1.2, x.2.1, x.2.2, y.1.1, y.1.2, y.2.1, y.2.2]
  · rw [m1, m2]
    have x := hg.near _ _ cb ca
    have y := hg.near _ _ cb cc
    simp only [nx, ny, abs_le] at *
    refine ⟨⟨?_, ?_⟩, ?_, ?_⟩ <;> linarith [x.1.1, x.1.2, x.2.1, x.2.2, y.1.1, y.1.2, y.2.1, y.2.2]
  · rw [m3]
    exact ⟨rfl, h.flat.flat _ (h.corner_mem cb) _ (h.corner_mem ca)⟩
  · have e2 : |((m.mid e).x - (m.node b).xyz.x) * ((m.node a).xyz.y - (m.node b).xyz.y) - ((m.mid e).y - (m.node b).xyz.y) * ((m.node a).xyz.x - (m.node b).xyz.x)| =
        2 * (triArea m e / 3) := by
      rw [← ha, m1, m2, sarea3, ← abs_of_pos (show (0:ℝ) < 2 by norm_num), ← abs_of_pos (show (0:ℝ) < 3 by norm_num), ← abs_div, ← abs_mul, abs_of_pos (show (0:ℝ) < 2 by norm_num),
        abs_of_pos (show (0:ℝ) < 3 by norm_num)]
      simp only [mean_single, nx, ny]
      congr 1
      ring
    rw [e2]
    have := hg.area
    nlinarith [this]

theorem Cell.mid_has (h : Cell s σ m e) (hf : Spec.Double f) (hg : FitsAt m σ G s.l e) : HasV s (gM G) (gM G) (f.mid m e) (m.mid e) := by
  refine Meshless.mid_has hf fun i hi => ?_
  have e : m.pos i = (m.node i).xyz := h.flat.basic i (h.corner_mem hi)
  rw [e]
  have := hg.coord i hi
  rw [mul_comm (s.l)]; exact this

/-- bounds of the area of a third of a triangle -/
def gA3' (σ G : ℚ) : Mg := (gA3 G).ref (1 / 3) (σ / 3)

theorem Cell.third (h : Cell s σ m e) (hf : Spec.Double f) (hg : FitsAt m σ G s.l e) {a b c : ℕ} (hp : [a, b, c].Perm (corners m e)) (ha : |sarea m [[a], [b], [c]]| = triArea m e) :
    (gA3' σ G).Has s (f.area3 (f.mid m e) (Fmt.xyz m a) (Fmt.xyz m b)) (polyArea [m.mid e, (m.node a).xyz, (m.node b).xyz]) := by
  have hT := (h.tri hg hp ha).swap
  have he : polyArea [m.mid e, (m.node a).xyz, (m.node b).xyz] = triArea m e / 3 := by
    obtain ⟨m1, m2, -⟩ := h.mid_at hp
    have : polyArea [m.mid e, (m.node a).xyz, (m.node b).xyz] =
        |0 + (m.node b).xyz.x * ((m.mid e).y - (m.node a).xyz.y) + (m.mid e).x * ((m.node a).xyz.y - (m.node b).xyz.y) + (m.node a).xyz.x * ((m.node b).xyz.y - (m.mid e).y)| / 2 := by
      simp [polyArea, areaOfPolygon, areaLoop, pyGet, pyIdx, List.range_succ]
    rw [this, ← ha, m1, m2, sarea3]
    simp only [mean_single, nx, ny]
    rw [← abs_of_pos (show (0:ℝ) < 3 by norm_num), ← abs_div, ← abs_of_pos (show (0:ℝ) < 2 by norm_num), ← abs_div, abs_of_pos (show (0:ℝ) < 2 by norm_num),
        abs_of_pos (show (0:ℝ) < 3 by norm_num)]
    congr 1
    ring
  have hup := h.size.up
  have hlo := h.size.area
  have h0 : 0 ≤ triArea m e := abs_nonneg _
  refine (area3_has hf hT (h.mid_has hf hg)).ref ?_ ?_
  · show _ ≤ s.U ((⟨2, 0, 0, 0⟩ : Grd) - ⟨0, 0, 0, 0⟩) * _
    rw [U_div_area _ rfl, he, abs_of_nonneg (by linarith)]
    push_cast; linarith
  · show s.U ((⟨2, 0, 0, 0⟩ : Grd) - ⟨0, 0, 0, 0⟩) * _ ≤ _
    rw [U_div_area _ rfl, he, abs_of_nonneg (by linarith)]
    push_cast; linarith

/-! ### the orientation -/

def gQx (G : ℚ) : Mg := gD G * gDz G - gDz G * gD G
def gQz (G : ℚ) : Mg := gD G * gD G - gD G * gD G
def gQr (G : ℚ) : Mg := (gQx G * inp ⟨0, 0, 0, 0⟩ 0 + gQx G * inp ⟨0, 0, 0, 0⟩ 0) + gQz G * cst 1
/-- the rounding errors do not reach the sign -/
def okQr (σ G : ℚ) : Bool := (gQr G).ok && decide ((gQr G).e ≤ 2 ^ 52 * (2 / 3 * σ))

theorem Cell.orient (h : Cell s σ m e) (hf : Spec.Double f) (hσ : 0 < σ) (hg : FitsAt m σ G s.l e) (hk : okQr σ G = true) : f.cellOrient m e = cellOrient m e := by
  simp only [okQr, Bool.and_eq_true, decide_eq_true_eq] at hk
  have hT := h.tri hg (List.Perm.refl (corners m e)) rfl
  have hC := h.mid_has hf hg
  have u := hT.to_mid hf hC
  have v := hT.swap.to_mid hf hC
  have cx := (u.y.mul hf v.z).sub hf (u.z.mul hf v.y)
  have cy := Has.sub' (x := gDz G * gD G) (y := gD G * gDz G) hf rfl (u.z.mul hf v.x) (u.x.mul hf v.z)
  have cz := (u.x.mul hf v.y).sub hf (u.y.mul hf v.x)
  have := ((cx.mul hf (has0 (g := ⟨0, 0, 0, 0⟩))).add hf (cy.mul hf (has0 (g := ⟨0, 0, 0, 0⟩)))).add hf (cz.mul hf has1)
  obtain ⟨w, e0, _, h2, _⟩ := (show (gQr G).Has s _ _ from this) hk.1
  have e' : f.vdot (f.vcross (f.vsub (Fmt.xyz m (m.tria e).n1) (f.mid m e)) (f.vsub (Fmt.xyz m (m.tria e).n2) (f.mid m e))) zGlobal.flo = .fin w := e0
  have hl := s.l_pos
  have hE := u64_pos
  have hσ' : 0 < (σ:ℝ) := by exact_mod_cast hσ
  have key : w < 0 ↔ Vec3.dot (Vec3.cross ((m.node (m.tria e).n1).xyz.sub (m.mid e)) ((m.node (m.tria e).n2).xyz.sub (m.mid e))) zGlobal < 0 := by
    refine sign_same (B := s.l ^ 2 * (2 / 3 * σ)) (by positivity) ?_ ?_
    · refine hT.area.trans_eq ?_
      congr 1
      simp only [Vec3.dot, Vec3.cross, Vec3.sub, zGlobal]
      ring
    · have e2 : ((gQr G).e : ℝ) ≤ 2 ^ 52 * (2 / 3 * σ) := by
        have := (Rat.cast_le (K := ℝ)).2 hk.2
        push_cast at this; exact this
      have e1 : |w - Vec3.dot (Vec3.cross ((m.node (m.tria e).n1).xyz.sub (m.mid e)) ((m.node (m.tria e).n2).xyz.sub (m.mid e))) zGlobal| ≤ u64 * (s.U (gQr G).g * (gQr G).e) := by
        refine le_trans (le_of_eq ?_) h2
        congr 1
      rw [show (gQr G).g = (⟨2, 0, 0, 0⟩ : Grd) from rfl, U_area] at e1
      refine e1.trans ?_
      calc u64 * (s.l ^ 2 * ((gQr G).e:ℝ)) ≤ u64 * (s.l ^ 2 * (2 ^ 52 * (2 / 3 * σ))) := by gcongr
        _ = _ := by rw [u64_eq]; ring
  have key' : (f.vdot (f.vcross (f.vsub (Fmt.xyz m (m.tria e).n1) (f.mid m e)) (f.vsub (Fmt.xyz m (m.tria e).n2) (f.mid m e))) zGlobal.flo).lt (.fin 0) ↔
      Vec3.dot (Vec3.cross ((m.node (m.tria e).n1).xyz.sub (m.mid e)) ((m.node (m.tria e).n2).xyz.sub (m.mid e))) zGlobal < 0 := by
    rw [e']; exact key
  unfold Fmt.cellOrient cellOrient
  simp only [key']

end

/-! ### the variables -/

/-- the bounds of a profile are those of the computed numbers, with smoothing -/
def ProfS.okS (p : ProfS) : Bool :=
  decide (0 < p.σ) && decide (p.σ ≤ 1) && (gAr p.σ).dom (wA p) && (gA3' p.σ p.G).dom (wB p) && (gD p.G).dom (wD p) && (gMo (gMx p.σ (gAr p.σ))).dom (wE p) && okQr p.σ p.G

theorem cellSEnv_has (hf : Spec.Double f) {p : ProfS} (hp : p.okS = true) {m : Mesh} {e : ℕ} (h : Cell s p.σ m e) (hg : FitsAt m p.σ p.G s.l e) (hi : Indexed m) {pn : Bool}
    (hh : HasProps m pn) (hs : ShearsUpTo m pn s.p) (hr : s.r = cavg m pn e fun l => l.h) {al : ℝ} (hal : al = 0 ∨ s.q = al) (fa : Bool) :
    ∃ c E0 n1 n2 n3, cellSEnv m pn al fa e = .ok E0 ∧ f.cellSEnv m pn al fa e = .ok c ∧ HasCellS s p c E0 ∧ [n1, n2, n3].Perm (corners m e) ∧
      c.i1 = (m.nids.idxOf n1 : ℕ) ∧ c.i2 = (m.nids.idxOf n2 : ℕ) ∧ c.i3 = (m.nids.idxOf n3 : ℕ) := by
  simp only [ProfS.okS, Bool.and_eq_true, decide_eq_true_eq] at hp
  obtain ⟨⟨⟨⟨⟨⟨hσ, hσ1⟩, kA⟩, kB⟩, kD⟩, kM⟩, kS⟩ := hp
  have ho := h.orient hf hσ hg kS
  have hc := cellOrient_ccw h.w h.flat h.mem
  rcases hx : cellOrient m e with ⟨a, b, c⟩
  rw [hx] at hc ho
  dsimp only at hc
  obtain ⟨ha, hb, hc'⟩ := hc.mem h.w h.mem
  have ca : IsCorner m e a := mem_corners_iff.1 (hc.perm.mem_iff.1 (by simp))
  have cb : IsCorner m e b := mem_corners_iff.1 (hc.perm.mem_iff.1 (by simp))
  have cc : IsCorner m e c := mem_corners_iff.1 (hc.perm.mem_iff.1 (by simp))
  have hs0 := cellShear_eq hh h.mem hc.perm
  obtain ⟨S, s1, s2⟩ := cellShear_bounds hf hs h.mem ca cb cc hs0 hr
  have hm0 := cellMaxl_eq h.w h.flat h.mem fa
  obtain ⟨L, l1, l2⟩ := h.maxl hf hσ hσ1 hm0
  have hst := stab_has hf l2 s2.h hr hal
  have p2 : [b, c, a].Perm (corners m e) := (List.perm_append_comm (l₁ := [b, c]) (l₂ := [a])).trans hc.perm
  have p3 : [c, a, b].Perm (corners m e) := (List.perm_append_comm (l₁ := [c]) (l₂ := [a, b])).trans hc.perm
  have a1 : |sarea m [[a], [b], [c]]| = triArea m e := by rw [hc.area]; exact abs_of_nonneg (abs_nonneg _)
  have a2 : |sarea m [[b], [c], [a]]| = triArea m e := by rw [← a1, sarea3, sarea3]; congr 1; ring
  have a3 : |sarea m [[c], [a], [b]]| = triArea m e := by rw [← a1, sarea3, sarea3]; congr 1; ring
  have hC := h.mid_has hf hg
  have d1 := (h.tri hg hc.perm a1).to_mid hf hC
  have d2 := (h.tri hg p2 a2).to_mid hf hC
  have d3 := (h.tri hg p3 a3).to_mid hf hC
  refine ⟨{ i1 := (m.nids.idxOf a : ℕ), i2 := (m.nids.idxOf b : ℕ), i3 := (m.nids.idxOf c : ℕ), Ac := f.triaArea m e,
            a1 := f.sub (Fmt.xyz m a).x (f.mid m e).x, b1 := f.sub (Fmt.xyz m a).y (f.mid m e).y,
            c1 := f.sub (Fmt.xyz m b).x (f.mid m e).x, d1 := f.sub (Fmt.xyz m b).y (f.mid m e).y, Ac1 := f.area3 (f.mid m e) (Fmt.xyz m a) (Fmt.xyz m b),
            a2 := f.sub (Fmt.xyz m b).x (f.mid m e).x, b2 := f.sub (Fmt.xyz m b).y (f.mid m e).y,
            c2 := f.sub (Fmt.xyz m c).x (f.mid m e).x, d2 := f.sub (Fmt.xyz m c).y (f.mid m e).y, Ac2 := f.area3 (f.mid m e) (Fmt.xyz m b) (Fmt.xyz m c),
            a3 := f.sub (Fmt.xyz m c).x (f.mid m e).x, b3 := f.sub (Fmt.xyz m c).y (f.mid m e).y,
            c3 := f.sub (Fmt.xyz m a).x (f.mid m e).x, d3 := f.sub (Fmt.xyz m a).y (f.mid m e).y, Ac3 := f.area3 (f.mid m e) (Fmt.xyz m c) (Fmt.xyz m a),
            E44 := f.mul (f.stab al L S.h) (f.mul S.k23 (S.E 0 0)), E45 := .fin 0,
            E55 := f.mul (f.stab al L S.h) (f.mul S.k13 (S.E 1 1)) },
          { i1 := (m.nids.idxOf a : ℕ), i2 := (m.nids.idxOf b : ℕ), i3 := (m.nids.idxOf c : ℕ), Ac := m.triaArea e,
            a1 := (m.node a).xyz.x - (m.mid e).x, b1 := (m.node a).xyz.y - (m.mid e).y,
            c1 := (m.node b).xyz.x - (m.mid e).x, d1 := (m.node b).xyz.y - (m.mid e).y, Ac1 := polyArea [m.mid e, (m.node a).xyz, (m.node b).xyz],
            a2 := (m.node b).xyz.x - (m.mid e).x, b2 := (m.node b).xyz.y - (m.mid e).y,
            c2 := (m.node c).xyz.x - (m.mid e).x, d2 := (m.node c).xyz.y - (m.mid e).y, Ac2 := polyArea [m.mid e, (m.node b).xyz, (m.node c).xyz],
            a3 := (m.node c).xyz.x - (m.mid e).x, b3 := (m.node c).xyz.y - (m.mid e).y,
            c3 := (m.node a).xyz.x - (m.mid e).x, d3 := (m.node a).xyz.y - (m.mid e).y, Ac3 := polyArea [m.mid e, (m.node c).xyz, (m.node a).xyz],
            E44 := stab al (charLen m fa e) (cShear m pn e).h * ((cShear m pn e).k23 * (cShear m pn e).E 0 0), E45 := 0,
            E55 := stab al (charLen m fa e) (cShear m pn e).h * ((cShear m pn e).k13 * (cShear m pn e).E 1 1) }, a, b, c, ?_, ?_, ?_, hc.perm, rfl, rfl, rfl⟩
  · unfold cellSEnv
    simp only [hx, hs0, hm0, Bind.bind, Except.bind, hi.index ha, hi.index hb, hi.index hc']
  · unfold Fmt.cellSEnv
    simp only [ho, s1, l1, Bind.bind, Except.bind, hi.index ha, hi.index hb, hi.index hc']
    rfl
  · exact { i1 := rfl, i2 := rfl, i3 := rfl, Ac := (h.area hf).dom kA,
            Ac1 := (h.third hf hg hc.perm a1).dom kB, Ac2 := (h.third hf hg p2 a2).dom kB, Ac3 := (h.third hf hg p3 a3).dom kB,
            a1 := d1.x.dom kD, b1 := d1.y.dom kD, c1 := d2.x.dom kD, d1 := d2.y.dom kD,
            a2 := d2.x.dom kD, b2 := d2.y.dom kD, c2 := d3.x.dom kD, d2 := d3.y.dom kD,
            a3 := d3.x.dom kD, b3 := d3.y.dom kD, c3 := d1.x.dom kD, d3 := d1.y.dom kD,
            E44 := (hst.mul hf (s2.k23.mul hf s2.E0)).dom kM, E45 := Has.zero le_rfl le_rfl le_rfl,
            E55 := (hst.mul hf (s2.k13.mul hf s2.E1)).dom kM }

/-- the triangles of the method with smoothing -/
theorem cellS_step (hf : Spec.Double f) {p : ProfS} (hp : p.okS = true) (hc : p.chkCellS = true) {m : Mesh} (w : WF m) (hm : FlatMesh m) (hi : Indexed m) {pn : Bool}
    (hh : HasProps m pn) {g L : ℝ} (hg : Medium g) (hs : ShearsUpTo m pn g) {t : ℕ} (ht : t ∈ m.eids) {l : ℝ} (hl : Medium l) (hL : l ≤ L) (hsz : FitsAt m p.σ p.G l t) {al : ℝ}
    (hal : al = 0 ∨ Medium al) (fa : Bool) : TriaStep f p m g L (f.cellSTria m pn al fa) (cellSTria m pn al fa) t := by
  have := hf
  have hq : ∃ q, Medium q ∧ (al = 0 ∨ q = al) := by
    rcases hal with h | h
    · exact ⟨g, hg, Or.inl h⟩
    · exact ⟨al, h, Or.inr rfl⟩
  obtain ⟨q, hq1, hq2⟩ := hq
  let s : Units := ⟨l, g, q, cavg m pn t fun l => l.h, hl, hg, hq1, thick_of hh hs ht⟩
  obtain ⟨c, E0, n1, n2, n3, h1, h2, h3, h4, e1, e2, e3⟩ := cellSEnv_has (f := f) (s := s) hf hp ⟨w, hm, ht, hsz.sized⟩ hsz hi hh hs rfl hq2 fa
  refine ⟨s, cellSEntries (K := Fo f) c, cellSEntries E0, n1, n2, n3, rfl, hL, fun M => ?_, fun M => ?_, cellSEntries_has hc h3, ?_, h4⟩
  · unfold Fmt.cellSTria; rw [h2]
  · unfold cellSTria; rw [h1]
  · rw [cellSEntries_at (K := Fo f) c, cellS_prod, ← e1, ← e2, ← e3]; rfl

end Meshless
