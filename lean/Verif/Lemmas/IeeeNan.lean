import Verif.Model.Ieee

/-! Where infinities and NaN come from: numbers that are known to be "0 or NaN", "infinite or NaN" or "NaN", through the operations of a format. -/

set_option autoImplicit false

namespace Meshless

/-- 0 or NaN -/
def Flo.Zn : Flo → Prop
  | .fin x => x = 0
  | .inf _ => False
  | .nan => True

/-- infinite or NaN -/
def Flo.Bad : Flo → Prop
  | .fin _ => False
  | _ => True

variable {f : Fmt}

theorem Fmt.rnd_zero (f : Fmt) : f.rnd 0 = .fin 0 := by
  unfold Fmt.rnd
  rw [f.zero, abs_zero, if_pos f.big_pos.le]

theorem Flo.Zn.neg {a : Flo} (h : a.Zn) : a.neg.Zn := by
  rcases a with x | s | _ <;> simp_all [Flo.Zn, Flo.neg]
theorem Flo.Bad.neg {a : Flo} (h : a.Bad) : a.neg.Bad := by
  rcases a with x | s | _ <;> simp_all [Flo.Bad, Flo.neg]
theorem Flo.Zn.add {a b : Flo} (h : a.Zn) (h' : b.Zn) : (f.add a b).Zn := by
  rcases a with x | s | _ <;> rcases b with y | t | _ <;> simp_all [Flo.Zn, Fmt.add, Fmt.rnd_zero]
theorem Flo.Bad.add_left {a b : Flo} (h : a.Bad) : (f.add a b).Bad := by
  rcases a with x | s | _ <;> rcases b with y | t | _ <;> simp_all [Flo.Bad, Fmt.add]
  split_ifs <;> simp_all
theorem Flo.Bad.add_right {a b : Flo} (h : b.Bad) : (f.add a b).Bad := by
  rcases a with x | s | _ <;> rcases b with y | t | _ <;> simp_all [Flo.Bad, Fmt.add]
  split_ifs <;> simp_all
theorem Fmt.add_nan_left (b : Flo) : f.add .nan b = .nan := by rcases b with y | t | _ <;> rfl
theorem Fmt.add_nan_right (a : Flo) : f.add a .nan = .nan := by rcases a with y | t | _ <;> rfl
theorem Flo.Zn.mul_left {a b : Flo} (h : a.Zn) : (f.mul a b).Zn := by
  rcases a with x | s | _ <;> rcases b with y | t | _ <;> simp_all [Flo.Zn, Fmt.mul, Fmt.rnd_zero]
theorem Flo.Zn.mul_right {a b : Flo} (h : b.Zn) : (f.mul a b).Zn := by
  rcases a with x | s | _ <;> rcases b with y | t | _ <;> simp_all [Flo.Zn, Fmt.mul, Fmt.rnd_zero]
theorem Flo.Bad.mul_left {a b : Flo} (h : a.Bad) : (f.mul a b).Bad := by
  rcases a with x | s | _ <;> rcases b with y | t | _ <;> simp_all [Flo.Bad, Fmt.mul]
  split_ifs <;> simp_all
theorem Flo.Bad.mul_right {a b : Flo} (h : b.Bad) : (f.mul a b).Bad := by
  rcases a with x | s | _ <;> rcases b with y | t | _ <;> simp_all [Flo.Bad, Fmt.mul]
  split_ifs <;> simp_all
theorem Fmt.mul_nan_left (b : Flo) : f.mul .nan b = .nan := by rcases b with y | t | _ <;> rfl
theorem Fmt.mul_nan_right (a : Flo) : f.mul a .nan = .nan := by rcases a with y | t | _ <;> rfl
theorem Flo.Zn.mul_bad {a b : Flo} (h : a.Zn) (h' : b.Bad) : f.mul a b = .nan := by
  rcases a with x | s | _ <;> rcases b with y | t | _ <;> simp_all [Flo.Zn, Flo.Bad, Fmt.mul]
theorem Flo.Bad.mul_zn {a b : Flo} (h : a.Bad) (h' : b.Zn) : f.mul a b = .nan := by
  rcases a with x | s | _ <;> rcases b with y | t | _ <;> simp_all [Flo.Zn, Flo.Bad, Fmt.mul]
theorem Fmt.div_nan_left (b : Flo) : f.div .nan b = .nan := by rcases b with y | t | _ <;> rfl
theorem Fmt.div_nan_right (a : Flo) : f.div a .nan = .nan := by rcases a with y | t | _ <;> rfl
theorem Flo.Bad.div {a b : Flo} (h : a.Bad) : (f.div a b).Bad := by
  rcases a with x | s | _ <;> rcases b with y | t | _ <;> simp_all [Flo.Bad, Fmt.div]
theorem Flo.Zn.div_by {a b : Flo} (h : b.Zn) : (f.div a b).Bad := by
  rcases a with x | s | _ <;> rcases b with y | t | _ <;> simp_all [Flo.Bad, Flo.Zn, Fmt.div]
  split_ifs <;> simp_all
theorem Flo.Bad.div_by {a b : Flo} (h : b.Bad) : (f.div a b).Zn := by
  rcases a with x | s | _ <;> rcases b with y | t | _ <;> simp_all [Flo.Bad, Flo.Zn, Fmt.div]
theorem Flo.Zn.div {a b : Flo} (h : a.Zn) : (f.div a b).Zn := by
  rcases a with x | s | _ <;> rcases b with y | t | _ <;> simp_all [Flo.Zn, Fmt.div, Fmt.rnd_zero]
  split_ifs <;> simp_all
theorem Flo.Zn.div_zn {a b : Flo} (h : a.Zn) (h' : b.Zn) : f.div a b = .nan := by
  rcases a with x | s | _ <;> rcases b with y | t | _ <;> simp_all [Flo.Zn, Fmt.div]
theorem Flo.Bad.div_bad {a b : Flo} (h : a.Bad) (h' : b.Bad) : f.div a b = .nan := by
  rcases a with x | s | _ <;> rcases b with y | t | _ <;> simp_all [Flo.Bad, Fmt.div]
theorem Flo.Zn.abs {a : Flo} (h : a.Zn) : a.abs.Zn := by
  rcases a with x | s | _ <;> simp_all [Flo.Zn, Flo.abs]

/-- a number and what is known of it -/
structure Nt (f : Fmt) where
  x : Flo
  (z b n : Bool)
  hz : z = true → x.Zn
  hb : b = true → x.Bad
  hn : n = true → x = .nan

namespace Nt

noncomputable instance : Add (Nt f) := ⟨fun p q =>
  { x := f.add p.x q.x, z := p.z && q.z, b := p.b || q.b, n := p.n || q.n
    hz := fun h => by simp only [Bool.and_eq_true] at h; exact (p.hz h.1).add (q.hz h.2)
    hb := fun h => by
      simp only [Bool.or_eq_true] at h
      rcases h with h | h
      · exact (p.hb h).add_left
      · exact (q.hb h).add_right
    hn := fun h => by
      simp only [Bool.or_eq_true] at h
      rcases h with h | h
      · rw [p.hn h]; exact Fmt.add_nan_left _
      · rw [q.hn h]; exact Fmt.add_nan_right _ }⟩
instance : Neg (Nt f) := ⟨fun p =>
  { x := p.x.neg, z := p.z, b := p.b, n := p.n
    hz := fun h => (p.hz h).neg
    hb := fun h => (p.hb h).neg
    hn := fun h => by rw [p.hn h]; rfl }⟩
noncomputable instance : Sub (Nt f) := ⟨fun p q => p + -q⟩
noncomputable instance : Mul (Nt f) := ⟨fun p q =>
  { x := f.mul p.x q.x, z := p.z || q.z, b := p.b || q.b, n := p.n || q.n || (p.z && q.b) || (p.b && q.z)
    hz := fun h => by
      simp only [Bool.or_eq_true] at h
      rcases h with h | h
      · exact (p.hz h).mul_left
      · exact (q.hz h).mul_right
    hb := fun h => by
      simp only [Bool.or_eq_true] at h
      rcases h with h | h
      · exact (p.hb h).mul_left
      · exact (q.hb h).mul_right
    hn := fun h => by
      simp only [Bool.or_eq_true, Bool.and_eq_true] at h
      rcases h with ((h | h) | h) | h
      · rw [p.hn h]; exact Fmt.mul_nan_left _
      · rw [q.hn h]; exact Fmt.mul_nan_right _
      · exact (p.hz h.1).mul_bad (q.hb h.2)
      · exact (p.hb h.1).mul_zn (q.hz h.2) }⟩
noncomputable instance : Div (Nt f) := ⟨fun p q =>
  { x := f.div p.x q.x, z := p.z || q.b, b := p.b || q.z, n := p.n || q.n || (p.z && q.z) || (p.b && q.b)
    hz := fun h => by
      simp only [Bool.or_eq_true] at h
      rcases h with h | h
      · exact (p.hz h).div
      · exact (q.hb h).div_by
    hb := fun h => by
      simp only [Bool.or_eq_true] at h
      rcases h with h | h
      · exact (p.hb h).div
      · exact (q.hz h).div_by
    hn := fun h => by
      simp only [Bool.or_eq_true, Bool.and_eq_true] at h
      rcases h with ((h | h) | h) | h
      · rw [p.hn h]; exact Fmt.div_nan_left _
      · rw [q.hn h]; exact Fmt.div_nan_right _
      · exact (p.hz h.1).div_zn (q.hz h.2)
      · exact (p.hb h.1).div_bad (q.hb h.2) }⟩

/-- nothing is known -/
def any (f : Fmt) (x : Flo) : Nt f := ⟨x, false, false, false, fun h => by simp at h, fun h => by simp at h, fun h => by simp at h⟩
noncomputable instance : OfNat (Nt f) 1 := ⟨any f (f.rnd 1)⟩
noncomputable instance : OfNat (Nt f) 2 := ⟨any f (f.rnd 2)⟩
noncomputable instance : OfNat (Nt f) 4 := ⟨any f (f.rnd 4)⟩
noncomputable instance : OfNat (Nt f) 8 := ⟨any f (f.rnd 8)⟩
noncomputable instance : OfScientific (Nt f) := ⟨fun m s e => any f (f.rnd (OfScientific.ofScientific m s e : ℝ))⟩

/-- the three flags -/
structure Flag where
  (z b n : Bool)

namespace Flag
instance : Add Flag := ⟨fun p q => ⟨p.z && q.z, p.b || q.b, p.n || q.n⟩⟩
instance : Neg Flag := ⟨fun p => ⟨p.z, p.b, p.n⟩⟩
instance : Sub Flag := ⟨fun p q => p + -q⟩
instance : Mul Flag := ⟨fun p q => ⟨p.z || q.z, p.b || q.b, p.n || q.n || (p.z && q.b) || (p.b && q.z)⟩⟩
instance : Div Flag := ⟨fun p q => ⟨p.z || q.b, p.b || q.z, p.n || q.n || (p.z && q.z) || (p.b && q.b)⟩⟩
instance : OfNat Flag 1 := ⟨⟨false, false, false⟩⟩
instance : OfNat Flag 2 := ⟨⟨false, false, false⟩⟩
instance : OfNat Flag 4 := ⟨⟨false, false, false⟩⟩
instance : OfNat Flag 8 := ⟨⟨false, false, false⟩⟩
instance : OfScientific Flag := ⟨fun _ _ _ => ⟨false, false, false⟩⟩
end Flag

/-- the flags of a number -/
def flag (p : Nt f) : Flag := ⟨p.z, p.b, p.n⟩

/-- a number that is 0 or NaN -/
def zn (x : Flo) (h : x.Zn) : Nt f := ⟨x, true, false, false, fun _ => h, fun h => by simp at h, fun h => by simp at h⟩
/-- a number that is infinite or NaN -/
def bad (x : Flo) (h : x.Bad) : Nt f := ⟨x, false, true, false, fun h => by simp at h, fun _ => h, fun h => by simp at h⟩

theorem of_flag {L : List (ℤ × ℤ × Nt f)} {L' : List (ℤ × ℤ × Flag)} (h : L.map (fun t => t.2.2.flag) = L'.map (fun t => t.2.2)) (q : Flag → Bool)
    (hb : L'.all (fun t => q t.2.2) = true) {t : ℤ × ℤ × Nt f} (ht : t ∈ L) : q t.2.2.flag = true := by
  have h1 : t.2.2.flag ∈ L'.map (fun t => t.2.2) := by rw [← h]; exact List.mem_map_of_mem ht
  obtain ⟨s, hs, he⟩ := List.mem_map.1 h1
  have := List.all_eq_true.1 hb s hs
  rw [he] at this
  exact this

end Nt
end Meshless
