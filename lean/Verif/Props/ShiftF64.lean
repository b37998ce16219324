import Verif.Props.GeocentricF64
import Verif.Props.TransformationsExact
import Verif.Props.ValuesF64

/-! C98: accuracy of datum shifts in IEEE arithmetic. -/

namespace Geo
open XR Spec
variable {L : Libm}

/-! ### Literals -/

theorem near_lit (q : ℚ) {R E : ℝ} (h : |(q : ℝ)| ≤ R) (h1 : 1e-50 ≤ R) (h2 : R ≤ 1e60) (hE : 1.2e-16 * R ≤ E) :
    Near (Flt.lit q : F64 L) q E := by
  obtain ⟨k1, k2⟩ := round_near (q := q) (r := q) (ε := 0) (R := R) (E := E) (by simp) (by simpa using h) h1 h2 (by simpa using hE)
  have f : (B64.lit q).isFinite = true := (B64.ofQ_finite _ _).2 k1
  refine ⟨f, ?_⟩
  rw [show (Flt.lit q : F64 L).toQ = rndQ q from B64.ofQ_toQ f]
  exact k2

/-- `x * (1.0 / 1.0)`: lengths in metres. -/
theorem metre_fin : (B64.div (B64.lit 1) (B64.lit 1)).isFinite = true ∧ (B64.div (B64.lit 1) (B64.lit 1)).toQ = 1 := by
  decide +kernel

theorem metre_near {x : F64 L} {r ε : ℝ} (h : Near x r ε) : Near (Length.new x M).m r ε := by
  have e1 : (x * (1 / 1 : F64 L)).isFinite ∧ (x * (1 / 1 : F64 L)).toQ = x.toQ := by
    have hq : rndQ (B64.toQ x * (B64.div (B64.lit 1) (B64.lit 1)).toQ) = B64.toQ x := by
      rw [metre_fin.2, mul_one]; exact (B64.toQ_rep x).rnd
    have hf := B64.mul_finite_of h.1 metre_fin.1 (by rw [hq]; exact (B64.toQ_isDouble x).abs_lt)
    exact ⟨hf, (B64.mul_finite hf).2.2.trans hq⟩
  exact ⟨e1.1, by show |((x * (1 / 1 : F64 L)).toQ : ℝ) - r| ≤ ε; rw [e1.2]; exact h.2⟩

/-! ### The Helmert transformation -/

theorem term_near {e v : F64 L} {E V A d ε : ℝ} (k : Near e E d) (a : |E| ≤ A) (hA : A ≤ 1.005) (hd : d ≤ 5e-16)
    (w : Near v V ε) (b : |V| ≤ 20000000) (hε : ε ≤ 1e-3) :
    Near (e * v) (E * V) (1.0001 * (A * ε) + 2.1e7 * d + 2.5e-9 * A + 1.3e-16) ∧ |E * V| ≤ A * 20000000 ∧
      0 ≤ A * ε ∧ A * ε ≤ 1e-3 * A ∧ 0 ≤ A ∧ 0 ≤ d := by
  have A0 : 0 ≤ A := (abs_nonneg _).trans a
  have d0 := k.nonneg
  have ε0 := w.nonneg
  have m1 : 0 ≤ A * ε := mul_nonneg A0 ε0
  have m2 : A * ε ≤ 1e-3 * A := by rw [mul_comm (1e-3 : ℝ)]; exact mul_le_mul_of_nonneg_left hε A0
  have m3 : d * ε ≤ d * 1e-3 := mul_le_mul_of_nonneg_left hε d0
  have m4 : 0 ≤ d * ε := mul_nonneg d0 ε0
  refine ⟨?_, ?_, m1, m2, A0, d0⟩
  · refine Near.mul k w a b (R := A * 20000000 + (A * ε + 20000000 * d + d * ε) + 1) (by linarith) ?_ ?_ ?_
    · norm_num at *; linarith
    · norm_num at *; linarith
    · norm_num at *; linarith
  · rw [abs_mul]; exact mul_le_mul a b (abs_nonneg _) A0

theorem row_near {e1 e2 e3 v1 v2 v3 t : F64 L} {E1 E2 E3 V1 V2 V3 A1 A2 A3 d1 d2 d3 ε : ℝ} (k1 : Near e1 E1 d1)
    (k2 : Near e2 E2 d2) (k3 : Near e3 E3 d3) (a1 : |E1| ≤ A1) (a2 : |E2| ≤ A2) (a3 : |E3| ≤ A3) (hA : A1 + A2 + A3 ≤ 1.005)
    (hd : d1 + d2 + d3 ≤ 5e-16) (w1 : Near v1 V1 ε) (w2 : Near v2 V2 ε) (w3 : Near v3 V3 ε) (b1 : |V1| ≤ 20000000)
    (b2 : |V2| ≤ 20000000) (b3 : |V3| ≤ 20000000) (hε : ε ≤ 1e-3) (ft : t.isFinite) (ht : |t.toQ| ≤ 100000) :
    Near (e1 * v1 + e2 * v2 + e3 * v3 + t) (E1 * V1 + E2 * V2 + E3 * V3 + t.toQ) (1.01 * ε + 2.5e-8) ∧
    Near (e1 * v1 + e2 * v2 + e3 * v3 - t) (E1 * V1 + E2 * V2 + E3 * V3 - t.toQ) (1.01 * ε + 2.5e-8) := by
  have p1 := (abs_nonneg _).trans a1
  have p2 := (abs_nonneg _).trans a2
  have p3 := (abs_nonneg _).trans a3
  have q1 := k1.nonneg
  have q2 := k2.nonneg
  have q3 := k3.nonneg
  obtain ⟨s1, c1, m1, n1, -, -⟩ := term_near k1 a1 (by linarith) (by linarith) w1 b1 hε
  obtain ⟨s2, c2, m2, n2, -, -⟩ := term_near k2 a2 (by linarith) (by linarith) w2 b2 hε
  obtain ⟨s3, c3, m3, n3, -, -⟩ := term_near k3 a3 (by linarith) (by linarith) w3 b3 hε
  have ε0 := w1.nonneg
  have hm : A1 * ε + A2 * ε + A3 * ε ≤ 1.005 * ε := by
    rw [← add_mul, ← add_mul]; exact mul_le_mul_of_nonneg_right hA ε0
  have htr : |(t.toQ : ℝ)| ≤ 100000 := by
    have := (Rat.cast_le (K := ℝ)).2 ht
    push_cast at this
    exact this
  have kt := Near.exact ft
  generalize A1 * ε = x1 at *
  generalize A2 * ε = x2 at *
  generalize A3 * ε = x3 at *
  have u1 := abs_add_le (E1 * V1) (E2 * V2)
  have u2 := abs_add_le (E1 * V1 + E2 * V2) (E3 * V3)
  have t12 := Near.add s1 s2 (R := 2.02e7) (E := 1.0001 * (x1 + x2) + 2.1e7 * (d1 + d2) + 2.5e-9 * (A1 + A2) + 2.6e-9)
    (by norm_num at *; linarith) (by norm_num) (by norm_num) (by norm_num at *; linarith)
  have t123 := Near.add t12 s3 (R := 2.02e7)
    (E := 1.0001 * (x1 + x2 + x3) + 2.1e7 * (d1 + d2 + d3) + 2.5e-9 * (A1 + A2 + A3) + 5.2e-9)
    (by norm_num at *; linarith) (by norm_num) (by norm_num) (by norm_num at *; linarith)
  constructor
  · refine Near.add t123 kt (R := 2.04e7) ?_ (by norm_num) (by norm_num) (by norm_num at *; linarith)
    have := abs_add_le (E1 * V1 + E2 * V2 + E3 * V3) t.toQ
    norm_num at *; linarith
  · refine Near.sub t123 kt (R := 2.04e7) ?_ (by norm_num) (by norm_num) (by norm_num at *; linarith)
    have := abs_sub (E1 * V1 + E2 * V2 + E3 * V3) (t.toQ : ℝ)
    norm_num at *; linarith

theorem zero_near : Near (0 : F64 L) 0 0 := by
  obtain ⟨f, e⟩ := B64.lit_toQ isDouble_zero
  refine ⟨f, ?_⟩
  show |((B64.lit 0).toQ : ℝ) - 0| ≤ 0
  rw [e]; simp

theorem ones_fin : (B64.add (B64.lit 1) (B64.lit 0)).isFinite = true ∧ (B64.add (B64.lit 1) (B64.lit 0)).toQ = 1 ∧
    (B64.sub (B64.lit 1) (B64.lit 0)).isFinite = true ∧ (B64.sub (B64.lit 1) (B64.lit 0)).toQ = 1 := by
  decide +kernel

theorem one_add_near : Near (1 + 0 : F64 L) 1 0 :=
  ⟨ones_fin.1, by show |((B64.add (B64.lit 1) (B64.lit 0)).toQ : ℝ) - 1| ≤ 0; rw [ones_fin.2.1]; simp⟩

theorem one_sub_near : Near (1 - 0 : F64 L) 1 0 :=
  ⟨ones_fin.2.2.1, by show |((B64.sub (B64.lit 1) (B64.lit 0)).toQ : ℝ) - 1| ≤ 0; rw [ones_fin.2.2.2]; simp⟩

theorem diag_near {d k : F64 L} {K : ℝ} (hd : Near d 1 0) (hk : Near k K 1.3e-16) (hK : |K| ≤ 1.001) :
    Near (d * k) K 2.6e-16 := by
  refine (Near.mul hd hk (A := 1) (B := 1.001) (R := 1.002) (by norm_num) hK (by norm_num) (by norm_num) (by norm_num)
    (by norm_num)).congr (one_mul K)

theorem off_near {x k : F64 L} {r K : ℝ} (hx : Near x r 1.3e-19) (hr : |r| ≤ 1e-3) (hk : Near k K 1.3e-16)
    (hK : |K| ≤ 1.001) : Near (x * k) (r * K) 4e-19 ∧ |r * K| ≤ 1.1e-3 := by
  refine ⟨Near.mul hx hk hr hK (R := 1.002e-3) (by norm_num) (by norm_num) (by norm_num) (by norm_num), ?_⟩
  rw [abs_mul]
  exact (mul_le_mul hr hK (abs_nonneg _) (by norm_num)).trans (by norm_num)

theorem zero_add_near {x : F64 L} {r : ℝ} (hx : Near x r 0) (hr : |r| ≤ 1e-3) : Near (0 + x) r 1.3e-19 :=
  (Near.add zero_near hx (R := 1e-3) (E := 1.3e-19) (by rw [zero_add]; linarith) (by norm_num) (by norm_num)
    (by norm_num)).congr (zero_add r)

theorem zero_sub_near {x : F64 L} {r : ℝ} (hx : Near x r 0) (hr : |r| ≤ 1e-3) : Near (0 - x) (-r) 1.3e-19 :=
  (Near.sub zero_near hx (R := 1e-3) (E := 1.3e-19) (by rw [zero_sub, abs_neg]; linarith) (by norm_num) (by norm_num)
    (by norm_num)).congr (zero_sub r)

theorem factor_near {m : F64 L} (hf : m.isFinite) (hm : |m.toQ| ≤ 1000) :
    Near (PPM.mk m).factor (1 + m.toQ * 1e-6) 1.3e-16 ∧ Near (PPM.mk m).invFactor (1 - m.toQ * 1e-6) 1.3e-16 ∧
      |1 + (m.toQ : ℝ) * 1e-6| ≤ 1.001 ∧ |1 - (m.toQ : ℝ) * 1e-6| ≤ 1.001 := by
  have hmr : |(m.toQ : ℝ)| ≤ 1000 := by
    have := (Rat.cast_le (K := ℝ)).2 hm
    push_cast at this
    exact this
  have kl : Near (Flt.lit 1e-6 : F64 L) 1e-6 1.3e-22 :=
    (near_lit 1e-6 (R := 1e-6) (by norm_num) (by norm_num) (by norm_num) (by norm_num)).congr (by norm_num)
  have kp := Near.mul (Near.exact hf) kl (A := 1000) (B := 1e-6) (R := 1.1e-3) (E := 3e-19) hmr (by norm_num) (by norm_num)
    (by norm_num) (by norm_num) (by norm_num)
  obtain ⟨g1, g2⟩ := abs_le.1 hmr
  have c1 : |1 + (m.toQ : ℝ) * 1e-6| ≤ 1.001 := by rw [abs_le]; norm_num; constructor <;> linarith
  have c2 : |1 - (m.toQ : ℝ) * 1e-6| ≤ 1.001 := by rw [abs_le]; norm_num; constructor <;> linarith
  exact ⟨Near.add near_one kp (R := 1.002) (by norm_num at *; linarith) (by norm_num) (by norm_num) (by norm_num),
    Near.sub near_one kp (R := 1.002) (by norm_num at *; linarith) (by norm_num) (by norm_num) (by norm_num), c1, c2⟩

/-- Parameters of the size used in practice, and beyond: rotations of at most 1 mrad (206"), translations of at most
100 km, scales within 1000 ppm. -/
structure Usual (r1 r2 r3 t1 t2 t3 m : F64 L) : Prop where
  r1 : r1.isFinite ∧ |r1.toQ| ≤ 1 / 1000
  r2 : r2.isFinite ∧ |r2.toQ| ≤ 1 / 1000
  r3 : r3.isFinite ∧ |r3.toQ| ≤ 1 / 1000
  t1 : t1.isFinite ∧ |t1.toQ| ≤ 100000
  t2 : t2.isFinite ∧ |t2.toQ| ≤ 100000
  t3 : t3.isFinite ∧ |t3.toQ| ≤ 100000
  m : m.isFinite ∧ |m.toQ| ≤ 1000

theorem angle_near {r : F64 L} (h : r.isFinite ∧ |r.toQ| ≤ 1 / 1000) : Near r r.toQ 0 ∧ |(r.toQ : ℝ)| ≤ 1e-3 := by
  refine ⟨Near.exact h.1, ?_⟩
  have := (Rat.cast_le (K := ℝ)).2 h.2
  push_cast at this
  norm_num at *
  exact this

theorem Usual.neg {r1 r2 r3 t1 t2 t3 m : F64 L} (h : Usual r1 r2 r3 t1 t2 t3 m) : Usual (-r1) (-r2) (-r3) t1 t2 t3 m := by
  have k : ∀ r : F64 L, r.isFinite ∧ |r.toQ| ≤ 1 / 1000 → (-r).isFinite ∧ |(-r).toQ| ≤ 1 / 1000 := fun r hr =>
    ⟨(B64.neg_finite r).trans hr.1, by rw [show (-r).toQ = -r.toQ from B64.neg_toQ _, abs_neg]; exact hr.2⟩
  exact ⟨k _ h.r1, k _ h.r2, k _ h.r3, h.t1, h.t2, h.t3, h.m⟩

theorem positionVector_near {r1 r2 r3 t1 t2 t3 m : F64 L} (hu : Usual r1 r2 r3 t1 t2 t3 m)
    (p : XYZ (F64 L)) {x y z ε : ℝ} (hε : ε ≤ 1e-3) (kx : Near p.x.m x ε) (ky : Near p.y.m y ε) (kz : Near p.z.m z ε)
    (bx : |x| ≤ 20000000) (bY : |y| ≤ 20000000) (bz : |z| ≤ 20000000) :
    let T := (Helmert7Params.new .positionVector ⟨r1⟩ ⟨r2⟩ ⟨r3⟩ ⟨t1⟩ ⟨t2⟩ ⟨t3⟩ ⟨m⟩).toTransformation
    let R := helmert r1.toQ r2.toQ r3.toQ t1.toQ t2.toQ t3.toQ m.toQ
    NearXyz (T.toRef p) (R.toRef (xyz x y z)) (1.01 * ε + 2.5e-8) ∧
      NearXyz (T.fromRef p) (R.fromRef (xyz x y z)) (1.01 * ε + 2.5e-8) := by
  obtain ⟨f1, f2, g1, g2⟩ := factor_near hu.m.1 hu.m.2
  obtain ⟨a1, b1⟩ := angle_near hu.r1
  obtain ⟨a2, b2⟩ := angle_near hu.r2
  obtain ⟨a3, b3⟩ := angle_near hu.r3
  have b1' : |-(r1.toQ : ℝ)| ≤ 1e-3 := by rwa [abs_neg]
  have b2' : |-(r2.toQ : ℝ)| ≤ 1e-3 := by rwa [abs_neg]
  have b3' : |-(r3.toQ : ℝ)| ≤ 1e-3 := by rwa [abs_neg]
  have hA1 : (1.001 : ℝ) + 1.1e-3 + 1.1e-3 ≤ 1.005 := by norm_num
  have hA2 : (1.1e-3 : ℝ) + 1.001 + 1.1e-3 ≤ 1.005 := by norm_num
  have hA3 : (1.1e-3 : ℝ) + 1.1e-3 + 1.001 ≤ 1.005 := by norm_num
  have hd1 : (2.6e-16 : ℝ) + 4e-19 + 4e-19 ≤ 5e-16 := by norm_num
  have hd2 : (4e-19 : ℝ) + 2.6e-16 + 4e-19 ≤ 5e-16 := by norm_num
  have hd3 : (4e-19 : ℝ) + 4e-19 + 2.6e-16 ≤ 5e-16 := by norm_num
  intro T R
  constructor
  · rw [show R.toRef _ = _ from C46_to_ref _ _ _ _ _ _ _ _ _ _]
    have o1 := off_near (zero_add_near a1 b1) b1 f1 g1
    have o2 := off_near (zero_add_near a2 b2) b2 f1 g1
    have o3 := off_near (zero_add_near a3 b3) b3 f1 g1
    have n1 := off_near (zero_add_near a1.neg b1') b1' f1 g1
    have n2 := off_near (zero_add_near a2.neg b2') b2' f1 g1
    have n3 := off_near (zero_add_near a3.neg b3') b3' f1 g1
    have d := diag_near one_add_near f1 g1
    refine ⟨_, _, _, rfl, metre_near ?_, metre_near ?_, metre_near ?_⟩
    · exact (row_near d n3.1 o2.1 g1 n3.2 o2.2 hA1 hd1 kx ky kz bx bY bz hε hu.t1.1 hu.t1.2).1.congr (by ring)
    · exact (row_near o3.1 d n1.1 o3.2 g1 n1.2 hA2 hd2 kx ky kz bx bY bz hε hu.t2.1 hu.t2.2).1.congr (by ring)
    · exact (row_near n2.1 o1.1 d n2.2 o1.2 g1 hA3 hd3 kx ky kz bx bY bz hε hu.t3.1 hu.t3.2).1.congr (by ring)
  · rw [show R.fromRef _ = _ from helmert_fromRef _ _ _ _ _ _ _ _ _ _]
    have o1 := off_near (zero_sub_near a1 b1) b1' f2 g2
    have o2 := off_near (zero_sub_near a2 b2) b2' f2 g2
    have o3 := off_near (zero_sub_near a3 b3) b3' f2 g2
    have n1 := off_near (zero_sub_near a1.neg b1') (by rwa [neg_neg]) f2 g2
    have n2 := off_near (zero_sub_near a2.neg b2') (by rwa [neg_neg]) f2 g2
    have n3 := off_near (zero_sub_near a3.neg b3') (by rwa [neg_neg]) f2 g2
    have d := diag_near one_sub_near f2 g2
    refine ⟨_, _, _, rfl, metre_near ?_, metre_near ?_, metre_near ?_⟩
    · exact (row_near d n3.1 o2.1 g2 n3.2 o2.2 hA1 hd1 kx ky kz bx bY bz hε hu.t1.1 hu.t1.2).2.congr (by ring)
    · exact (row_near o3.1 d n1.1 o3.2 g2 n1.2 hA2 hd2 kx ky kz bx bY bz hε hu.t2.1 hu.t2.2).2.congr (by ring)
    · exact (row_near n2.1 o1.1 d n2.2 o1.2 g2 hA3 hd3 kx ky kz bx bY bz hε hu.t3.1 hu.t3.2).2.congr (by ring)

/-! ### C98 -/

/-- The exact transformation. -/
noncomputable def helmertR (conv : RotationConvention) (r1 r2 r3 t1 t2 t3 m : ℝ) : XYZTransformation XR :=
  (Helmert7Params.new conv ⟨fin r1⟩ ⟨fin r2⟩ ⟨fin r3⟩ ⟨fin t1⟩ ⟨fin t2⟩ ⟨fin t3⟩ ⟨fin m⟩).toTransformation

/-- **C98**: the Helmert transformation in IEEE arithmetic of a point known to within `ε`, both ways and with both
conventions of rotation, is within `1.01 ε + 25 nm` of the exact transformation of the exact point. -/
theorem C98_helmert_accuracy {r1 r2 r3 t1 t2 t3 m : F64 L} (hu : Usual r1 r2 r3 t1 t2 t3 m) (conv : RotationConvention)
    (p : XYZ (F64 L)) (P : XYZ XR) (hP : InSpace P) {ε : ℝ} (hε : ε ≤ 1e-3) (hp : NearXyz p P ε) :
    let T := (Helmert7Params.new conv ⟨r1⟩ ⟨r2⟩ ⟨r3⟩ ⟨t1⟩ ⟨t2⟩ ⟨t3⟩ ⟨m⟩).toTransformation
    let R := helmertR conv r1.toQ r2.toQ r3.toQ t1.toQ t2.toQ t3.toQ m.toQ
    NearXyz (T.toRef p) (R.toRef P) (1.01 * ε + 2.5e-8) ∧ NearXyz (T.fromRef p) (R.fromRef P) (1.01 * ε + 2.5e-8) := by
  obtain ⟨x, y, z, e, kx, ky, kz⟩ := hp
  obtain ⟨x', y', z', e', bx, bY, bz⟩ := hP
  have e3 : x = x' ∧ y = y' ∧ z = z' := by
    rw [e] at e'
    simpa [xyz] using e'
  obtain ⟨rfl, rfl, rfl⟩ := e3
  subst e
  cases conv
  · exact positionVector_near hu p hε kx ky kz bx bY bz
  · have h := positionVector_near hu.neg p hε kx ky kz bx bY bz
    have k := C47_f64 ⟨r1⟩ ⟨r2⟩ ⟨r3⟩ ⟨t1⟩ ⟨t2⟩ ⟨t3⟩ ⟨m⟩ p
    have n : ∀ r : F64 L, (((-r).toQ : ℚ) : ℝ) = -(r.toQ : ℝ) := fun r => by
      rw [show (-r).toQ = -r.toQ from B64.neg_toQ _, Rat.cast_neg]
    have hR : helmertR .coordinateFrame r1.toQ r2.toQ r3.toQ t1.toQ t2.toQ t3.toQ m.toQ =
        helmert (-r1).toQ (-r2).toQ (-r3).toQ t1.toQ t2.toQ t3.toQ m.toQ := by
      rw [helmertR, (C47_conventions_exact _ _ _ _ _ _ _).1, n, n, n]
      rfl
    intro T R
    rw [show R = _ from hR, show T.toRef p = _ from k.1, show T.fromRef p = _ from k.2]
    exact h

/-- **C98**: the same of a geocentric translation: `ε + 3 nm`. -/
theorem C98_translation_accuracy {t1 t2 t3 : F64 L} (f1 : t1.isFinite) (f2 : t2.isFinite) (f3 : t3.isFinite)
    (h1 : |t1.toQ| ≤ 100000) (h2 : |t2.toQ| ≤ 100000) (h3 : |t3.toQ| ≤ 100000) (p : XYZ (F64 L)) (P : XYZ XR)
    (hP : InSpace P) {ε : ℝ} (hε : ε ≤ 1e-3) (hp : NearXyz p P ε) :
    let T := (GeocentricTranslation.mk ⟨t1⟩ ⟨t2⟩ ⟨t3⟩).toTransformation
    NearXyz (T.toRef p) ((translation t1.toQ t2.toQ t3.toQ).toRef P) (ε + 2.5e-9) ∧
      NearXyz (T.fromRef p) ((translation t1.toQ t2.toQ t3.toQ).fromRef P) (ε + 2.5e-9) := by
  obtain ⟨x, y, z, e, kx, ky, kz⟩ := hp
  obtain ⟨x', y', z', e', bx, bY, bz⟩ := hP
  have e3 : x = x' ∧ y = y' ∧ z = z' := by
    rw [e] at e'
    simpa [xyz] using e'
  obtain ⟨rfl, rfl, rfl⟩ := e3
  subst e
  have key : ∀ (v t : F64 L) (V : ℝ), t.isFinite → |t.toQ| ≤ 100000 → Near v V ε → |V| ≤ 20000000 →
      Near (v + t) (V + t.toQ) (ε + 2.5e-9) ∧ Near (v - t) (V - t.toQ) (ε + 2.5e-9) := by
    intro v t V ft ht kv bv
    have htr : |(t.toQ : ℝ)| ≤ 100000 := by
      have := (Rat.cast_le (K := ℝ)).2 ht
      push_cast at this
      exact this
    constructor
    · refine Near.add kv (Near.exact ft) (R := 2.02e7) ?_ (by norm_num) (by norm_num) (by norm_num)
      have := abs_add_le V t.toQ
      norm_num at *; linarith
    · refine Near.sub kv (Near.exact ft) (R := 2.02e7) ?_ (by norm_num) (by norm_num) (by norm_num)
      have := abs_sub V (t.toQ : ℝ)
      norm_num at *; linarith
  exact ⟨⟨_, _, _, rfl, (key _ _ _ f1 h1 kx bx).1, (key _ _ _ f2 h2 ky bY).1, (key _ _ _ f3 h3 kz bz).1⟩,
    ⟨_, _, _, rfl, (key _ _ _ f1 h1 kx bx).2, (key _ _ _ f2 h2 ky bY).2, (key _ _ _ f3 h3 kz bz).2⟩⟩

theorem NearXyz.mono {p : XYZ (F64 L)} {P : XYZ XR} {ε E : ℝ} (h : NearXyz p P ε) (h' : ε ≤ E) : NearXyz p P E := by
  obtain ⟨x, y, z, e, hx, hy, hz⟩ := h
  exact ⟨x, y, z, e, hx.mono h', hy.mono h', hz.mono h'⟩

theorem nearXyz_exact {p : XYZ (F64 L)} (fx : p.x.m.isFinite) (fy : p.y.m.isFinite) (fz : p.z.m.isFinite) :
    NearXyz p (xyz p.x.m.toQ p.y.m.toQ p.z.m.toQ) 0 :=
  ⟨_, _, _, rfl, Near.exact fx, Near.exact fy, Near.exact fz⟩

/-- **C98**: a geocentric translation there and back, in IEEE arithmetic, ends within 5 nm of where it started. -/
theorem C98_round_trip {t1 t2 t3 : F64 L} (f1 : t1.isFinite) (f2 : t2.isFinite) (f3 : t3.isFinite)
    (h1 : |t1.toQ| ≤ 100000) (h2 : |t2.toQ| ≤ 100000) (h3 : |t3.toQ| ≤ 100000) (p : XYZ (F64 L)) (fx : p.x.m.isFinite)
    (fy : p.y.m.isFinite) (fz : p.z.m.isFinite) (bx : |p.x.m.toQ| ≤ 19900000) (bY : |p.y.m.toQ| ≤ 19900000)
    (bz : |p.z.m.toQ| ≤ 19900000) :
    let T := (GeocentricTranslation.mk ⟨t1⟩ ⟨t2⟩ ⟨t3⟩).toTransformation
    NearXyz (T.fromRef (T.toRef p)) (xyz p.x.m.toQ p.y.m.toQ p.z.m.toQ) 5e-9 ∧
      NearXyz (T.toRef (T.fromRef p)) (xyz p.x.m.toQ p.y.m.toQ p.z.m.toQ) 5e-9 := by
  have c : ∀ {q : ℚ} {n : ℕ}, |q| ≤ n → |(q : ℝ)| ≤ n := fun {q n} h => by
    have := (Rat.cast_le (K := ℝ)).2 h
    push_cast at this
    exact this
  have kx : |(p.x.m.toQ : ℝ)| ≤ 19900000 := by simpa using c (n := 19900000) (by simpa using bx)
  have ky : |(p.y.m.toQ : ℝ)| ≤ 19900000 := by simpa using c (n := 19900000) (by simpa using bY)
  have kz : |(p.z.m.toQ : ℝ)| ≤ 19900000 := by simpa using c (n := 19900000) (by simpa using bz)
  have k1 : |(t1.toQ : ℝ)| ≤ 100000 := by simpa using c (n := 100000) (by simpa using h1)
  have k2 : |(t2.toQ : ℝ)| ≤ 100000 := by simpa using c (n := 100000) (by simpa using h2)
  have k3 : |(t3.toQ : ℝ)| ≤ 100000 := by simpa using c (n := 100000) (by simpa using h3)
  have hP : InSpace (xyz p.x.m.toQ p.y.m.toQ p.z.m.toQ) := ⟨_, _, _, rfl, by linarith, by linarith, by linarith⟩
  obtain ⟨a1, a2⟩ := C98_translation_accuracy f1 f2 f3 h1 h2 h3 p _ hP (by norm_num) (nearXyz_exact fx fy fz)
  have s : ∀ {x t : ℝ}, |x| ≤ 19900000 → |t| ≤ 100000 → |x + t| ≤ 20000000 ∧ |x - t| ≤ 20000000 := fun {x t} hx ht => by
    have := abs_add_le x t
    have := abs_sub x t
    constructor <;> linarith
  intro T
  constructor
  · have hQ : InSpace ((translation t1.toQ t2.toQ t3.toQ).toRef (xyz p.x.m.toQ p.y.m.toQ p.z.m.toQ)) :=
      ⟨_, _, _, rfl, (s kx k1).1, (s ky k2).1, (s kz k3).1⟩
    obtain ⟨-, x, y, z, e, n1, n2, n3⟩ := C98_translation_accuracy f1 f2 f3 h1 h2 h3 _ _ hQ (by norm_num) a1
    have e' : xyz (p.x.m.toQ + t1.toQ - t1.toQ) (p.y.m.toQ + t2.toQ - t2.toQ) (p.z.m.toQ + t3.toQ - t3.toQ) =
      xyz x y z := e
    rw [add_sub_cancel_right, add_sub_cancel_right, add_sub_cancel_right] at e'
    exact ⟨x, y, z, e', n1.mono (by norm_num), n2.mono (by norm_num), n3.mono (by norm_num)⟩
  · have hQ : InSpace ((translation t1.toQ t2.toQ t3.toQ).fromRef (xyz p.x.m.toQ p.y.m.toQ p.z.m.toQ)) :=
      ⟨_, _, _, rfl, (s kx k1).2, (s ky k2).2, (s kz k3).2⟩
    obtain ⟨⟨x, y, z, e, n1, n2, n3⟩, -⟩ := C98_translation_accuracy f1 f2 f3 h1 h2 h3 _ _ hQ (by norm_num) a2
    have e' : xyz (p.x.m.toQ - t1.toQ + t1.toQ) (p.y.m.toQ - t2.toQ + t2.toQ) (p.z.m.toQ - t3.toQ + t3.toQ) =
      xyz x y z := e
    rw [sub_add_cancel, sub_add_cancel, sub_add_cancel] at e'
    exact ⟨x, y, z, e', n1.mono (by norm_num), n2.mono (by norm_num), n3.mono (by norm_num)⟩

/-- A point at most `B` from the three coordinate planes. -/
def Within (B : ℝ) (P : XYZ XR) : Prop := ∃ x y z : ℝ, P = xyz x y z ∧ |x| ≤ B ∧ |y| ≤ B ∧ |z| ≤ B

theorem Within.inSpace {B : ℝ} {P : XYZ XR} (h : Within B P) (hB : B ≤ 20000000) : InSpace P := by
  obtain ⟨x, y, z, e, h1, h2, h3⟩ := h
  exact ⟨x, y, z, e, h1.trans hB, h2.trans hB, h3.trans hB⟩

/-- Points at most 10000 km above or below an ellipsoid of the size of the Earth. -/
theorem geocentric_within {a b : ℝ} (hb : 6000000 ≤ b) (hab : b ≤ a) (ha : a ≤ 7000000) {h : ℝ} (hh : |h| ≤ 10000000)
    (id n pn : String) (l0 l φ : ℝ) : Within 1.84e7 ((dat id n pn a b l0).llhToXyz (llh l φ h)) := by
  rw [llhToXyz_all (by linarith) hab]
  refine ⟨_, _, _, rfl, ?_⟩
  obtain ⟨-, -, v1, v2⟩ := pvr_bounds hb hab ha φ
  obtain ⟨q1, q2⟩ := ecc2_le hb hab ha
  generalize pvr a b φ = v at *
  generalize ecc2 a b = q at *
  have hr : |v + h| ≤ 1.84e7 := by
    have := abs_add_le v h
    rw [abs_of_nonneg v1] at this
    norm_num at *; linarith
  have hz : |v * (1 - q) + h| ≤ 1.84e7 := by
    have h1 := abs_add_le (v * (1 - q)) h
    have h2 : |v * (1 - q)| ≤ v := by
      rw [abs_mul, abs_of_nonneg v1]
      exact mul_le_of_le_one_right v1 (by rw [abs_of_nonneg (by norm_num at *; linarith)]; linarith)
    norm_num at *; linarith
  have m : ∀ {r c B : ℝ}, |r| ≤ B → |c| ≤ 1 → |r * c| ≤ B := fun {r c B} h1 h2 => by
    rw [abs_mul]; exact (mul_le_of_le_one_right (abs_nonneg _) h2).trans h1
  exact ⟨m (m hr (Real.abs_cos_le_one _)) (Real.abs_cos_le_one _),
    m (m hr (Real.abs_cos_le_one _)) (Real.abs_sin_le_one _), m hz (Real.abs_sin_le_one _)⟩

/-- **C98**: geographic to geocentric coordinates followed by a Helmert transformation, in IEEE arithmetic: within 80 nm
of the exact point. -/
theorem C98_pipeline (hL : Accurate L) (d : GeodeticDatum (F64 L)) (he : EarthSized d.ellipsoid)
    (h0 : InLonRange d.primeMeridian.lon.angle.rad) (p : LLH (F64 L)) (hl : InLonRange p.lon.angle.rad)
    (hφ : InLonRange p.lat.angle.rad) (hf : p.height.m.isFinite) (hh : |p.height.m.toQ| ≤ 10000000) (id n pn : String)
    {r1 r2 r3 t1 t2 t3 m : F64 L} (hu : Usual r1 r2 r3 t1 t2 t3 m) (conv : RotationConvention) :
    let T := (Helmert7Params.new conv ⟨r1⟩ ⟨r2⟩ ⟨r3⟩ ⟨t1⟩ ⟨t2⟩ ⟨t3⟩ ⟨m⟩).toTransformation
    let R := helmertR conv r1.toQ r2.toQ r3.toQ t1.toQ t2.toQ t3.toQ m.toQ
    let P := (dat id n pn d.ellipsoid.a.m.toQ d.ellipsoid.b.m.toQ d.primeMeridian.lon.angle.rad.toQ).llhToXyz
      (llh p.lon.angle.rad.toQ p.lat.angle.rad.toQ p.height.m.toQ)
    NearXyz (T.toRef (d.llhToXyz p)) (R.toRef P) 8e-8 ∧ NearXyz (T.fromRef (d.llhToXyz p)) (R.fromRef P) 8e-8 := by
  obtain ⟨e1, e2, e3⟩ := earth_real he
  have hhr : |(p.height.m.toQ : ℝ)| ≤ 10000000 := by
    have := (Rat.cast_le (K := ℝ)).2 hh
    push_cast at this
    exact this
  intro T R P
  obtain ⟨a, b⟩ := C98_helmert_accuracy hu conv _ _ ((geocentric_within e1 e2 e3 hhr id n pn _ _ _).inSpace (by norm_num)) (by norm_num)
    (C97_geocentric_accuracy hL d he h0 p hl hφ hf hh id n pn)
  exact ⟨a.mono (by norm_num), b.mono (by norm_num)⟩

theorem usual_fin : (B64.lit 0.00001).isFinite = true ∧ |(B64.lit 0.00001).toQ| ≤ 1 / 1000 ∧
    (B64.lit (-100)).isFinite = true ∧ |(B64.lit (-100)).toQ| ≤ 1000 ∧ |(B64.lit (-100)).toQ| ≤ 100000 := by decide +kernel

/-- Rotations of 10 µrad, translations of -100 m and a scale of -100 ppm, applied to (1000 m, -100 m, 2 m). -/
example (L : Libm) : Usual (Flt.lit 0.00001 : F64 L) (Flt.lit 0.00001) (Flt.lit 0.00001) (Flt.lit (-100)) (Flt.lit (-100))
      (Flt.lit (-100)) (Flt.lit (-100)) ∧
    (∃ (p : XYZ (F64 L)) (P : XYZ XR), p = ⟨⟨Flt.lit 1000⟩, ⟨Flt.lit (-100)⟩, ⟨Flt.lit 2⟩⟩ ∧ InSpace P ∧ NearXyz p P 0) := by
  obtain ⟨a, b, c, d, e⟩ := usual_fin
  refine ⟨⟨⟨a, b⟩, ⟨a, b⟩, ⟨a, b⟩, ⟨c, e⟩, ⟨c, e⟩, ⟨c, e⟩, ⟨c, d⟩⟩, _, _, rfl, ?_, nearXyz_exact thousand_fin.1 c two_fin.1⟩
  have k : ∀ x : F64 L, |x.toQ| ≤ 20000000 → |(x.toQ : ℝ)| ≤ 20000000 := fun x hx => by
    have := (Rat.cast_le (K := ℝ)).2 hx
    push_cast at this
    exact this
  exact ⟨_, _, _, rfl, k _ (thousand_fin.2.trans (by norm_num)), k _ (d.trans (by norm_num)),
    k _ ((two_fin.2.trans (pi_le_four (L := L))).trans (by norm_num))⟩

end Geo
