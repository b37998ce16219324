import Verif.Model.Report
import Verif.Sem.F64
import Mathlib.Data.List.Basic
import Mathlib.Data.Rat.Encodable

/-! C77: the `Display` implementations, for every way of formatting floats. -/

namespace Geo
variable {F : Type} [Flt F]

/-- What the formatting of floats of `std` guarantees: `{}` is faithful (the shortest text that reads back as the same float,
without spaces); the padded formats contain none of the symbols that follow them. -/
structure FloatFmt.Faithful (fm : FloatFmt F) : Prop where
  plain_inj : ∀ x y, fm.plain x = fm.plain y → x = y
  plain_space : ∀ x, ' ' ∉ (fm.plain x).toList
  plain_paren : ∀ x, ')' ∉ (fm.plain x).toList
  w4_deg : ∀ x, '°' ∉ (fm.w4 x).toList
  w02_min : ∀ x, '′' ∉ (fm.w02 x).toList
  w011_8_sec : ∀ x, '″' ∉ (fm.w011_8 x).toList

/-- The text in front of the first `c` can be read back. -/
theorem split_at {c : Char} {a b s t : List Char} (ha : c ∉ a) (hb : c ∉ b) (h : a ++ c :: s = b ++ c :: t) :
    a = b ∧ s = t := by
  induction a generalizing b with
  | nil =>
    cases b with
    | nil => simpa using h
    | cons y b =>
      simp only [List.nil_append, List.cons_append, List.cons.injEq] at h
      exact absurd (by simp [h.1]) hb
  | cons x a ih =>
    cases b with
    | nil =>
      simp only [List.nil_append, List.cons_append, List.cons.injEq] at h
      exact absurd (by simp [h.1]) ha
    | cons y b =>
      simp only [List.cons_append, List.cons.injEq] at h
      obtain ⟨h1, h2⟩ := ih (fun h' => ha (by simp [h'])) (fun h' => hb (by simp [h'])) h.2
      exact ⟨by rw [h.1, h1], h2⟩

/-- A text that starts with a float in format `{}` and a space. -/
theorem plain_split {fm : FloatFmt F} (hf : fm.Faithful) {x y : F} {s t : List Char}
    (h : (fm.plain x).toList ++ ' ' :: s = (fm.plain y).toList ++ ' ' :: t) : x = y ∧ s = t := by
  obtain ⟨h1, h2⟩ := split_at (hf.plain_space x) (hf.plain_space y) h
  exact ⟨hf.plain_inj _ _ (String.toList_injective h1), h2⟩

/-- The numbers shown for an azimuth. -/
def SameDms (fm : FloatFmt F) (a b : Dms F) : Prop :=
  fm.w4 a.deg = fm.w4 b.deg ∧ fm.w02 a.min = fm.w02 b.min ∧ fm.w011_8 a.sec = fm.w011_8 b.sec

theorem dms_split {fm : FloatFmt F} (hf : fm.Faithful) {a b : Dms F} {s t : List Char}
    (h : (a.display fm).toList ++ s = (b.display fm).toList ++ t) : SameDms fm a b ∧ s = t := by
  simp only [Dms.display, String.toList_append, String.reduceToList, List.append_assoc, List.cons_append,
    List.nil_append] at h
  obtain ⟨h1, h⟩ := split_at (hf.w4_deg _) (hf.w4_deg _) h
  obtain ⟨h2, h⟩ := split_at (hf.w02_min _) (hf.w02_min _) (List.cons.inj h).2
  obtain ⟨h3, h⟩ := split_at (hf.w011_8_sec _) (hf.w011_8_sec _) (List.cons.inj h).2
  exact ⟨⟨String.toList_injective h1, String.toList_injective h2, String.toList_injective h3⟩, h⟩

/-- C77: the texts of coordinates determine the numbers shown (angles in degrees, lengths in metres). -/
theorem C77_coordinates {fm : FloatFmt F} (hf : fm.Faithful) :
    (∀ a b : Length F, a.display fm = b.display fm → a = b) ∧
    (∀ a b : Angle F, a.display fm = b.display fm → a = b) ∧
    (∀ i j : Interval F, i.display fm = j.display fm → i.lo = j.lo ∧ i.hi = j.hi) ∧
    (∀ p q : LLH F, p.display fm = q.display fm → p.lon.angle.val DEG = q.lon.angle.val DEG ∧
      p.lat.angle.val DEG = q.lat.angle.val DEG ∧ p.height = q.height) ∧
    (∀ p q : XYZ F, p.display fm = q.display fm → p = q) ∧
    (∀ p q : ENH F, p.display fm = q.display fm → p = q) := by
  refine ⟨fun a b h => ?_, fun a b h => ?_, fun i j h => ?_, fun p q h => ?_, fun p q h => ?_, fun p q h => ?_⟩
  all_goals
    replace h := congrArg String.toList h
    simp only [Length.display, Angle.display, Interval.display, LLH.display, Lon.display, Lat.display, Angle.displayDeg,
      XYZ.display, ENH.display, String.toList_append, String.reduceToList, List.append_assoc, List.cons_append,
      List.nil_append, List.cons.injEq, true_and] at h
  · exact Length.ext (plain_split hf h).1
  · exact Angle.ext (plain_split hf h).1
  · obtain ⟨h1, h⟩ := plain_split hf h
    simp only [List.cons.injEq, true_and] at h
    exact ⟨Angle.ext h1, Angle.ext (plain_split hf h).1⟩
  · obtain ⟨h1, h⟩ := plain_split hf h
    simp only [List.cons.injEq, true_and] at h
    obtain ⟨h2, h⟩ := plain_split hf h
    simp only [List.cons.injEq, true_and] at h
    exact ⟨h1, h2, Length.ext (plain_split hf h).1⟩
  · obtain ⟨h1, h⟩ := plain_split hf h
    simp only [List.cons.injEq, true_and] at h
    obtain ⟨h2, h⟩ := plain_split hf h
    simp only [List.cons.injEq, true_and] at h
    exact XYZ.ext (Length.ext h1) (Length.ext h2) (Length.ext (plain_split hf h).1)
  · obtain ⟨h1, h⟩ := plain_split hf h
    simp only [List.cons.injEq, true_and] at h
    obtain ⟨h2, h⟩ := plain_split hf h
    simp only [List.cons.injEq, true_and] at h
    exact ENH.ext (Length.ext h1) (Length.ext h2) (Length.ext (plain_split hf h).1)

/-- C77: the texts of ellipsoids, prime meridians and datums with the same names determine the numbers shown. -/
theorem C77_datums {fm : FloatFmt F} (hf : fm.Faithful) :
    (∀ e e' : Ellipsoid F, e.name = e'.name → e.display fm = e'.display fm → e = e') ∧
    (∀ m m' : PrimeMeridian F, m.name = m'.name → m.display fm = m'.display fm → SameDms fm m.lon.angle.dms m'.lon.angle.dms) ∧
    (∀ d d' : GeodeticDatum F, d.id = d'.id → d.ellipsoid.name = d'.ellipsoid.name →
      d.primeMeridian.name = d'.primeMeridian.name → d.display fm = d'.display fm →
      d.ellipsoid = d'.ellipsoid ∧ SameDms fm d.primeMeridian.lon.angle.dms d'.primeMeridian.lon.angle.dms) := by
  have he : ∀ (e e' : Ellipsoid F) (s t : List Char), e.name = e'.name →
      (e.display fm).toList ++ s = (e'.display fm).toList ++ t → e = e' ∧ s = t := by
    intro e e' s t hn h
    simp only [Ellipsoid.display, Length.display, String.toList_append, String.reduceToList, List.append_assoc, List.cons_append,
      List.nil_append, List.cons.injEq, true_and, hn, List.append_cancel_left_eq] at h
    obtain ⟨h1, h⟩ := plain_split hf h
    simp only [List.cons.injEq, true_and] at h
    obtain ⟨h2, h⟩ := plain_split hf h
    simp only [List.cons.injEq, true_and] at h
    obtain ⟨h3, h⟩ := split_at (hf.plain_paren _) (hf.plain_paren _) h
    refine ⟨?_, h⟩
    obtain ⟨n, a, b, f⟩ := e
    obtain ⟨n', a', b', f'⟩ := e'
    have h3 := hf.plain_inj _ _ (String.toList_injective h3)
    simp_all [Length.ext_iff]
  have hm : ∀ (m m' : PrimeMeridian F) (s t : List Char), m.name = m'.name →
      (m.display fm).toList ++ s = (m'.display fm).toList ++ t → SameDms fm m.lon.angle.dms m'.lon.angle.dms := by
    intro m m' s t hn h
    simp only [PrimeMeridian.display, String.toList_append, String.reduceToList, List.append_assoc, List.cons_append,
      List.nil_append, List.cons.injEq, true_and, hn, List.append_cancel_left_eq] at h
    exact (dms_split hf h).1
  refine ⟨fun e e' hn h => (he e e' [] [] hn (by rw [h])).1, fun m m' hn h => hm m m' [] [] hn (by rw [h]),
    fun d d' hi hn hn' h => ?_⟩
  replace h := congrArg String.toList h
  simp only [GeodeticDatum.display, String.toList_append, String.reduceToList, List.append_assoc, List.cons_append,
    List.nil_append, List.cons.injEq, true_and, hi, List.append_cancel_left_eq] at h
  obtain ⟨h1, h⟩ := he _ _ _ _ hn h
  simp only [List.cons.injEq, true_and] at h
  exact ⟨h1, hm _ _ _ _ hn' h⟩

theorem append_cancel {p s t : String} (h : p ++ s = p ++ t) : s = t := by
  have h := congrArg String.toList h
  rw [String.toList_append, String.toList_append] at h
  exact String.toList_injective (List.append_cancel_left h)

theorem deg_split {fm : FloatFmt F} (hf : fm.Faithful) {x y : F} {s t : String}
    (h : fm.plain x ++ (" deg" ++ s) = fm.plain y ++ (" deg" ++ t)) : x = y ∧ s = t := by
  have h := congrArg String.toList h
  simp only [String.toList_append, String.reduceToList, List.cons_append] at h
  obtain ⟨h1, h⟩ := plain_split hf h
  simp only [List.cons.injEq, true_and, List.nil_append] at h
  exact ⟨h1, String.toList_injective h⟩

theorem rad_split {fm : FloatFmt F} (hf : fm.Faithful) {x y : F} {s t : String}
    (h : fm.plain x ++ (" rad" ++ s) = fm.plain y ++ (" rad" ++ t)) : x = y ∧ s = t := by
  have h := congrArg String.toList h
  simp only [String.toList_append, String.reduceToList, List.cons_append] at h
  obtain ⟨h1, h⟩ := plain_split hf h
  simp only [List.cons.injEq, true_and, List.nil_append] at h
  exact ⟨h1, String.toList_injective h⟩

theorem dms_split' {fm : FloatFmt F} (hf : fm.Faithful) {a b : Dms F} {s t : String}
    (h : a.display fm ++ s = b.display fm ++ t) : SameDms fm a b ∧ s = t := by
  have h := congrArg String.toList h
  rw [String.toList_append, String.toList_append] at h
  obtain ⟨h1, h⟩ := dms_split hf h
  exact ⟨h1, String.toList_injective h⟩

/-- C77, negation: the text of a geodesic does not depend on the latitude of its start (the longitude is printed in its place). -/
theorem C77_geodesic_violated (fm : FloatFmt F) (g : Geodesic F) (lat : Lat F) :
    ({ g with p1 := (g.p1.1, lat) } : Geodesic F).display fm = g.display fm ∧
    g.display fm = ({ g with p1 := (g.p1.1, ⟨g.p1.1.angle⟩) } : Geodesic F).display fm := by
  unfold Geodesic.display
  exact ⟨rfl, rfl⟩

/-- C77, partial: the text of a geodesic determines everything else.  Missing: the latitude of the start. -/
theorem C77_geodesic_partial {fm : FloatFmt F} (hf : fm.Faithful) (g g' : Geodesic F) (h : g.display fm = g'.display fm) :
    g.p1.1.angle.val DEG = g'.p1.1.angle.val DEG ∧ SameDms fm g.alpha1.angle.dms g'.alpha1.angle.dms ∧
    g.p2.1.angle.val DEG = g'.p2.1.angle.val DEG ∧ g.p2.2.angle.val DEG = g'.p2.2.angle.val DEG ∧
    SameDms fm g.alpha2.angle.dms g'.alpha2.angle.dms ∧ g.p2.1.sub g.p1.1 = g'.p2.1.sub g'.p1.1 ∧ g.s = g'.s := by
  unfold Geodesic.display Length.display Angle.display Lon.display Lat.display Angle.displayDeg Azimuth.display at h
  simp only [String.append_assoc] at h
  obtain ⟨h1, h⟩ := deg_split hf (append_cancel h)
  obtain ⟨-, h⟩ := deg_split hf (append_cancel h)
  obtain ⟨h2, h⟩ := dms_split' hf (append_cancel h)
  obtain ⟨h3, h⟩ := deg_split hf (append_cancel h)
  obtain ⟨h4, h⟩ := deg_split hf (append_cancel h)
  obtain ⟨h5, h⟩ := dms_split' hf (append_cancel h)
  obtain ⟨h6, h⟩ := rad_split hf (append_cancel h)
  replace h := congrArg String.toList (append_cancel h)
  rw [String.toList_append, String.toList_append] at h
  have h7 := hf.plain_inj _ _ (String.toList_injective (List.append_cancel_right h))
  exact ⟨h1, h2, h3, h4, h5, Angle.ext h6, Length.ext h7⟩

/-- A faithful way of writing doubles. -/
def b64Code : B64 → ℕ
  | .nan => 0
  | .inf true => 1
  | .inf false => 2
  | .negZero => 3
  | .num q _ => 4 + Encodable.encode q

theorem b64Code_injective : Function.Injective b64Code := by
  intro a b h
  rcases a with _ | s | _ | ⟨q, hq⟩ <;> rcases b with _ | t | _ | ⟨r, hr⟩ <;> try cases s
  all_goals try cases t
  all_goals simp only [b64Code] at h
  all_goals first
    | rfl
    | omega
    | (have := Encodable.encode_injective (show Encodable.encode q = Encodable.encode r by omega)
       subst this; rfl)

/-- The text of a double as a row of strokes: faithful, and made of one symbol only. -/
def strokes (L : Libm) : FloatFmt (F64 L) :=
  let f : F64 L → String := fun x => String.ofList (List.replicate (b64Code x) 'I')
  ⟨f, f, f, f⟩

example (L : Libm) : (strokes L).Faithful where
  plain_inj x y h := b64Code_injective (by simpa [strokes] using congrArg (fun s : String => s.toList.length) h)
  plain_space x := by simp [strokes]
  plain_paren x := by simp [strokes]
  w4_deg x := by simp [strokes]
  w02_min x := by simp [strokes]
  w011_8_sec x := by simp [strokes]

end Geo
