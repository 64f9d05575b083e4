import Verif.Model.Gen.K0
import Verif.Model.Gen.KG
import Verif.Model.Gen.CellS
import Verif.Model.Gen.CellNS
import Verif.Model.Gen.EdgeB
import Verif.Model.Gen.EdgeI

/-! GENERATED by /verif/tools/gencert.py: functions and relations applied to every number of the local variables of the six blocks. -/

namespace Meshless

/-- `f` applied to every number of the environment; the row and column numbers stay -/
def K0Env.map {K L : Type*} (f : K → L) (e : K0Env K) : K0Env L where
  i1 := e.i1
  i2 := e.i2
  i3 := e.i3
  i4 := e.i4
  Ac := f e.Ac
  A11 := f e.A11
  A12 := f e.A12
  A16 := f e.A16
  A22 := f e.A22
  A26 := f e.A26
  A66 := f e.A66
  B11 := f e.B11
  B12 := f e.B12
  B16 := f e.B16
  B22 := f e.B22
  B26 := f e.B26
  B66 := f e.B66
  D11 := f e.D11
  D12 := f e.D12
  D16 := f e.D16
  D22 := f e.D22
  D26 := f e.D26
  D66 := f e.D66
  f11 := f e.f11
  f12 := f e.f12
  f13 := f e.f13
  f14 := f e.f14
  f21 := f e.f21
  f22 := f e.f22
  f23 := f e.f23
  f24 := f e.f24
  f31 := f e.f31
  f32 := f e.f32
  f33 := f e.f33
  f34 := f e.f34
  f41 := f e.f41
  f42 := f e.f42
  f43 := f e.f43
  f44 := f e.f44
  le1 := f e.le1
  le2 := f e.le2
  le3 := f e.le3
  le4 := f e.le4
  nx1 := f e.nx1
  nx2 := f e.nx2
  nx3 := f e.nx3
  nx4 := f e.nx4
  ny1 := f e.ny1
  ny2 := f e.ny2
  ny3 := f e.ny3
  ny4 := f e.ny4

/-- the same row and column numbers, and `P` between corresponding numbers -/
structure K0Env.Rel {K L : Type*} (P : K → L → Prop) (a : K0Env K) (b : K0Env L) : Prop where
  i1 : a.i1 = b.i1
  i2 : a.i2 = b.i2
  i3 : a.i3 = b.i3
  i4 : a.i4 = b.i4
  Ac : P a.Ac b.Ac
  A11 : P a.A11 b.A11
  A12 : P a.A12 b.A12
  A16 : P a.A16 b.A16
  A22 : P a.A22 b.A22
  A26 : P a.A26 b.A26
  A66 : P a.A66 b.A66
  B11 : P a.B11 b.B11
  B12 : P a.B12 b.B12
  B16 : P a.B16 b.B16
  B22 : P a.B22 b.B22
  B26 : P a.B26 b.B26
  B66 : P a.B66 b.B66
  D11 : P a.D11 b.D11
  D12 : P a.D12 b.D12
  D16 : P a.D16 b.D16
  D22 : P a.D22 b.D22
  D26 : P a.D26 b.D26
  D66 : P a.D66 b.D66
  f11 : P a.f11 b.f11
  f12 : P a.f12 b.f12
  f13 : P a.f13 b.f13
  f14 : P a.f14 b.f14
  f21 : P a.f21 b.f21
  f22 : P a.f22 b.f22
  f23 : P a.f23 b.f23
  f24 : P a.f24 b.f24
  f31 : P a.f31 b.f31
  f32 : P a.f32 b.f32
  f33 : P a.f33 b.f33
  f34 : P a.f34 b.f34
  f41 : P a.f41 b.f41
  f42 : P a.f42 b.f42
  f43 : P a.f43 b.f43
  f44 : P a.f44 b.f44
  le1 : P a.le1 b.le1
  le2 : P a.le2 b.le2
  le3 : P a.le3 b.le3
  le4 : P a.le4 b.le4
  nx1 : P a.nx1 b.nx1
  nx2 : P a.nx2 b.nx2
  nx3 : P a.nx3 b.nx3
  nx4 : P a.nx4 b.nx4
  ny1 : P a.ny1 b.ny1
  ny2 : P a.ny2 b.ny2
  ny3 : P a.ny3 b.ny3
  ny4 : P a.ny4 b.ny4

/-- an environment built from a proof per number -/
def K0Env.ofRel {K L T : Type*} {P : K → L → Prop} (f : ∀ a b, P a b → T) {a : K0Env K} {b : K0Env L} (h : K0Env.Rel P a b) : K0Env T where
  i1 := b.i1
  i2 := b.i2
  i3 := b.i3
  i4 := b.i4
  Ac := f _ _ h.Ac
  A11 := f _ _ h.A11
  A12 := f _ _ h.A12
  A16 := f _ _ h.A16
  A22 := f _ _ h.A22
  A26 := f _ _ h.A26
  A66 := f _ _ h.A66
  B11 := f _ _ h.B11
  B12 := f _ _ h.B12
  B16 := f _ _ h.B16
  B22 := f _ _ h.B22
  B26 := f _ _ h.B26
  B66 := f _ _ h.B66
  D11 := f _ _ h.D11
  D12 := f _ _ h.D12
  D16 := f _ _ h.D16
  D22 := f _ _ h.D22
  D26 := f _ _ h.D26
  D66 := f _ _ h.D66
  f11 := f _ _ h.f11
  f12 := f _ _ h.f12
  f13 := f _ _ h.f13
  f14 := f _ _ h.f14
  f21 := f _ _ h.f21
  f22 := f _ _ h.f22
  f23 := f _ _ h.f23
  f24 := f _ _ h.f24
  f31 := f _ _ h.f31
  f32 := f _ _ h.f32
  f33 := f _ _ h.f33
  f34 := f _ _ h.f34
  f41 := f _ _ h.f41
  f42 := f _ _ h.f42
  f43 := f _ _ h.f43
  f44 := f _ _ h.f44
  le1 := f _ _ h.le1
  le2 := f _ _ h.le2
  le3 := f _ _ h.le3
  le4 := f _ _ h.le4
  nx1 := f _ _ h.nx1
  nx2 := f _ _ h.nx2
  nx3 := f _ _ h.nx3
  nx4 := f _ _ h.nx4
  ny1 := f _ _ h.ny1
  ny2 := f _ _ h.ny2
  ny3 := f _ _ h.ny3
  ny4 := f _ _ h.ny4

/-- `f` applied to every number of the environment; the row and column numbers stay -/
def KGEnv.map {K L : Type*} (f : K → L) (e : KGEnv K) : KGEnv L where
  i1 := e.i1
  i2 := e.i2
  i3 := e.i3
  i4 := e.i4
  Ac := f e.Ac
  Nxx := f e.Nxx
  Nxy := f e.Nxy
  Nyy := f e.Nyy
  f11 := f e.f11
  f12 := f e.f12
  f13 := f e.f13
  f14 := f e.f14
  f21 := f e.f21
  f22 := f e.f22
  f23 := f e.f23
  f24 := f e.f24
  f31 := f e.f31
  f32 := f e.f32
  f33 := f e.f33
  f34 := f e.f34
  f41 := f e.f41
  f42 := f e.f42
  f43 := f e.f43
  f44 := f e.f44
  le1 := f e.le1
  le2 := f e.le2
  le3 := f e.le3
  le4 := f e.le4
  nx1 := f e.nx1
  nx2 := f e.nx2
  nx3 := f e.nx3
  nx4 := f e.nx4
  ny1 := f e.ny1
  ny2 := f e.ny2
  ny3 := f e.ny3
  ny4 := f e.ny4

/-- the same row and column numbers, and `P` between corresponding numbers -/
structure KGEnv.Rel {K L : Type*} (P : K → L → Prop) (a : KGEnv K) (b : KGEnv L) : Prop where
  i1 : a.i1 = b.i1
  i2 : a.i2 = b.i2
  i3 : a.i3 = b.i3
  i4 : a.i4 = b.i4
  Ac : P a.Ac b.Ac
  Nxx : P a.Nxx b.Nxx
  Nxy : P a.Nxy b.Nxy
  Nyy : P a.Nyy b.Nyy
  f11 : P a.f11 b.f11
  f12 : P a.f12 b.f12
  f13 : P a.f13 b.f13
  f14 : P a.f14 b.f14
  f21 : P a.f21 b.f21
  f22 : P a.f22 b.f22
  f23 : P a.f23 b.f23
  f24 : P a.f24 b.f24
  f31 : P a.f31 b.f31
  f32 : P a.f32 b.f32
  f33 : P a.f33 b.f33
  f34 : P a.f34 b.f34
  f41 : P a.f41 b.f41
  f42 : P a.f42 b.f42
  f43 : P a.f43 b.f43
  f44 : P a.f44 b.f44
  le1 : P a.le1 b.le1
  le2 : P a.le2 b.le2
  le3 : P a.le3 b.le3
  le4 : P a.le4 b.le4
  nx1 : P a.nx1 b.nx1
  nx2 : P a.nx2 b.nx2
  nx3 : P a.nx3 b.nx3
  nx4 : P a.nx4 b.nx4
  ny1 : P a.ny1 b.ny1
  ny2 : P a.ny2 b.ny2
  ny3 : P a.ny3 b.ny3
  ny4 : P a.ny4 b.ny4

/-- an environment built from a proof per number -/
def KGEnv.ofRel {K L T : Type*} {P : K → L → Prop} (f : ∀ a b, P a b → T) {a : KGEnv K} {b : KGEnv L} (h : KGEnv.Rel P a b) : KGEnv T where
  i1 := b.i1
  i2 := b.i2
  i3 := b.i3
  i4 := b.i4
  Ac := f _ _ h.Ac
  Nxx := f _ _ h.Nxx
  Nxy := f _ _ h.Nxy
  Nyy := f _ _ h.Nyy
  f11 := f _ _ h.f11
  f12 := f _ _ h.f12
  f13 := f _ _ h.f13
  f14 := f _ _ h.f14
  f21 := f _ _ h.f21
  f22 := f _ _ h.f22
  f23 := f _ _ h.f23
  f24 := f _ _ h.f24
  f31 := f _ _ h.f31
  f32 := f _ _ h.f32
  f33 := f _ _ h.f33
  f34 := f _ _ h.f34
  f41 := f _ _ h.f41
  f42 := f _ _ h.f42
  f43 := f _ _ h.f43
  f44 := f _ _ h.f44
  le1 := f _ _ h.le1
  le2 := f _ _ h.le2
  le3 := f _ _ h.le3
  le4 := f _ _ h.le4
  nx1 := f _ _ h.nx1
  nx2 := f _ _ h.nx2
  nx3 := f _ _ h.nx3
  nx4 := f _ _ h.nx4
  ny1 := f _ _ h.ny1
  ny2 := f _ _ h.ny2
  ny3 := f _ _ h.ny3
  ny4 := f _ _ h.ny4

/-- `f` applied to every number of the environment; the row and column numbers stay -/
def CellSEnv.map {K L : Type*} (f : K → L) (e : CellSEnv K) : CellSEnv L where
  i1 := e.i1
  i2 := e.i2
  i3 := e.i3
  Ac := f e.Ac
  Ac1 := f e.Ac1
  Ac2 := f e.Ac2
  Ac3 := f e.Ac3
  E44 := f e.E44
  E45 := f e.E45
  E55 := f e.E55
  a1 := f e.a1
  b1 := f e.b1
  c1 := f e.c1
  d1 := f e.d1
  a2 := f e.a2
  b2 := f e.b2
  c2 := f e.c2
  d2 := f e.d2
  a3 := f e.a3
  b3 := f e.b3
  c3 := f e.c3
  d3 := f e.d3

/-- the same row and column numbers, and `P` between corresponding numbers -/
structure CellSEnv.Rel {K L : Type*} (P : K → L → Prop) (a : CellSEnv K) (b : CellSEnv L) : Prop where
  i1 : a.i1 = b.i1
  i2 : a.i2 = b.i2
  i3 : a.i3 = b.i3
  Ac : P a.Ac b.Ac
  Ac1 : P a.Ac1 b.Ac1
  Ac2 : P a.Ac2 b.Ac2
  Ac3 : P a.Ac3 b.Ac3
  E44 : P a.E44 b.E44
  E45 : P a.E45 b.E45
  E55 : P a.E55 b.E55
  a1 : P a.a1 b.a1
  b1 : P a.b1 b.b1
  c1 : P a.c1 b.c1
  d1 : P a.d1 b.d1
  a2 : P a.a2 b.a2
  b2 : P a.b2 b.b2
  c2 : P a.c2 b.c2
  d2 : P a.d2 b.d2
  a3 : P a.a3 b.a3
  b3 : P a.b3 b.b3
  c3 : P a.c3 b.c3
  d3 : P a.d3 b.d3

/-- an environment built from a proof per number -/
def CellSEnv.ofRel {K L T : Type*} {P : K → L → Prop} (f : ∀ a b, P a b → T) {a : CellSEnv K} {b : CellSEnv L} (h : CellSEnv.Rel P a b) : CellSEnv T where
  i1 := b.i1
  i2 := b.i2
  i3 := b.i3
  Ac := f _ _ h.Ac
  Ac1 := f _ _ h.Ac1
  Ac2 := f _ _ h.Ac2
  Ac3 := f _ _ h.Ac3
  E44 := f _ _ h.E44
  E45 := f _ _ h.E45
  E55 := f _ _ h.E55
  a1 := f _ _ h.a1
  b1 := f _ _ h.b1
  c1 := f _ _ h.c1
  d1 := f _ _ h.d1
  a2 := f _ _ h.a2
  b2 := f _ _ h.b2
  c2 := f _ _ h.c2
  d2 := f _ _ h.d2
  a3 := f _ _ h.a3
  b3 := f _ _ h.b3
  c3 := f _ _ h.c3
  d3 := f _ _ h.d3

/-- `f` applied to every number of the environment; the row and column numbers stay -/
def CellNSEnv.map {K L : Type*} (f : K → L) (e : CellNSEnv K) : CellNSEnv L where
  i1 := e.i1
  i2 := e.i2
  i3 := e.i3
  Ac := f e.Ac
  E44 := f e.E44
  E45 := f e.E45
  E55 := f e.E55
  a1 := f e.a1
  b1 := f e.b1
  c1 := f e.c1
  d1 := f e.d1

/-- the same row and column numbers, and `P` between corresponding numbers -/
structure CellNSEnv.Rel {K L : Type*} (P : K → L → Prop) (a : CellNSEnv K) (b : CellNSEnv L) : Prop where
  i1 : a.i1 = b.i1
  i2 : a.i2 = b.i2
  i3 : a.i3 = b.i3
  Ac : P a.Ac b.Ac
  E44 : P a.E44 b.E44
  E45 : P a.E45 b.E45
  E55 : P a.E55 b.E55
  a1 : P a.a1 b.a1
  b1 : P a.b1 b.b1
  c1 : P a.c1 b.c1
  d1 : P a.d1 b.d1

/-- an environment built from a proof per number -/
def CellNSEnv.ofRel {K L T : Type*} {P : K → L → Prop} (f : ∀ a b, P a b → T) {a : CellNSEnv K} {b : CellNSEnv L} (h : CellNSEnv.Rel P a b) : CellNSEnv T where
  i1 := b.i1
  i2 := b.i2
  i3 := b.i3
  Ac := f _ _ h.Ac
  E44 := f _ _ h.E44
  E45 := f _ _ h.E45
  E55 := f _ _ h.E55
  a1 := f _ _ h.a1
  b1 := f _ _ h.b1
  c1 := f _ _ h.c1
  d1 := f _ _ h.d1

/-- `f` applied to every number of the environment; the row and column numbers stay -/
def EdgeBEnv.map {K L : Type*} (f : K → L) (e : EdgeBEnv K) : EdgeBEnv L where
  i1 := e.i1
  i2 := e.i2
  i3 := e.i3
  Ac := f e.Ac
  E44 := f e.E44
  E45 := f e.E45
  E55 := f e.E55
  a1 := f e.a1
  b1 := f e.b1
  c1 := f e.c1
  d1 := f e.d1

/-- the same row and column numbers, and `P` between corresponding numbers -/
structure EdgeBEnv.Rel {K L : Type*} (P : K → L → Prop) (a : EdgeBEnv K) (b : EdgeBEnv L) : Prop where
  i1 : a.i1 = b.i1
  i2 : a.i2 = b.i2
  i3 : a.i3 = b.i3
  Ac : P a.Ac b.Ac
  E44 : P a.E44 b.E44
  E45 : P a.E45 b.E45
  E55 : P a.E55 b.E55
  a1 : P a.a1 b.a1
  b1 : P a.b1 b.b1
  c1 : P a.c1 b.c1
  d1 : P a.d1 b.d1

/-- an environment built from a proof per number -/
def EdgeBEnv.ofRel {K L T : Type*} {P : K → L → Prop} (f : ∀ a b, P a b → T) {a : EdgeBEnv K} {b : EdgeBEnv L} (h : EdgeBEnv.Rel P a b) : EdgeBEnv T where
  i1 := b.i1
  i2 := b.i2
  i3 := b.i3
  Ac := f _ _ h.Ac
  E44 := f _ _ h.E44
  E45 := f _ _ h.E45
  E55 := f _ _ h.E55
  a1 := f _ _ h.a1
  b1 := f _ _ h.b1
  c1 := f _ _ h.c1
  d1 := f _ _ h.d1

/-- `f` applied to every number of the environment; the row and column numbers stay -/
def EdgeIEnv.map {K L : Type*} (f : K → L) (e : EdgeIEnv K) : EdgeIEnv L where
  i1 := e.i1
  i2 := e.i2
  i3 := e.i3
  i4 := e.i4
  Ac := f e.Ac
  Ac1 := f e.Ac1
  Ac2 := f e.Ac2
  E44 := f e.E44
  E45 := f e.E45
  E55 := f e.E55
  a1 := f e.a1
  b1 := f e.b1
  c1 := f e.c1
  d1 := f e.d1
  a2 := f e.a2
  b2 := f e.b2
  c2 := f e.c2
  d2 := f e.d2

/-- the same row and column numbers, and `P` between corresponding numbers -/
structure EdgeIEnv.Rel {K L : Type*} (P : K → L → Prop) (a : EdgeIEnv K) (b : EdgeIEnv L) : Prop where
  i1 : a.i1 = b.i1
  i2 : a.i2 = b.i2
  i3 : a.i3 = b.i3
  i4 : a.i4 = b.i4
  Ac : P a.Ac b.Ac
  Ac1 : P a.Ac1 b.Ac1
  Ac2 : P a.Ac2 b.Ac2
  E44 : P a.E44 b.E44
  E45 : P a.E45 b.E45
  E55 : P a.E55 b.E55
  a1 : P a.a1 b.a1
  b1 : P a.b1 b.b1
  c1 : P a.c1 b.c1
  d1 : P a.d1 b.d1
  a2 : P a.a2 b.a2
  b2 : P a.b2 b.b2
  c2 : P a.c2 b.c2
  d2 : P a.d2 b.d2

/-- an environment built from a proof per number -/
def EdgeIEnv.ofRel {K L T : Type*} {P : K → L → Prop} (f : ∀ a b, P a b → T) {a : EdgeIEnv K} {b : EdgeIEnv L} (h : EdgeIEnv.Rel P a b) : EdgeIEnv T where
  i1 := b.i1
  i2 := b.i2
  i3 := b.i3
  i4 := b.i4
  Ac := f _ _ h.Ac
  Ac1 := f _ _ h.Ac1
  Ac2 := f _ _ h.Ac2
  E44 := f _ _ h.E44
  E45 := f _ _ h.E45
  E55 := f _ _ h.E55
  a1 := f _ _ h.a1
  b1 := f _ _ h.b1
  c1 := f _ _ h.c1
  d1 := f _ _ h.d1
  a2 := f _ _ h.a2
  b2 := f _ _ h.b2
  c2 := f _ _ h.c2
  d2 := f _ _ h.d2

end Meshless
