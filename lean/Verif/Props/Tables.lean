import Verif.Props.SlopeText
import Verif.Props.CsvText
import Verif.Props.Melts
import Verif.Model.TableText
/-
  C76: look-up tables, from the text of the file to the value used.
-/
set_option linter.unusedSectionVars false
namespace PyFlowGo
open Spec

/-- At an entry of an ascending table the interpolation is the entry. -/
theorem interpolates_entry {kn : List (ℝ × ℝ)} (hlen : 2 ≤ kn.length) (hasc : Ascending kn) {p : ℝ × ℝ} (hp : p ∈ kn) :
    Interpolates kn p.1 p.2 := by
  obtain ⟨pre, post, rfl⟩ := List.append_of_mem hp
  cases post with
  | cons q post =>
    exact ⟨pre, p, q, post, rfl, Or.inr le_rfl, Or.inr (ascending_pair hasc).le, (lineThrough_left p q).symm⟩
  | nil =>
    have hne : pre ≠ [] := by rintro rfl; simp at hlen
    obtain ⟨pre', a, rfl⟩ : ∃ pre' a, pre = pre' ++ [a] := ⟨_, _, (List.dropLast_append_getLast hne).symm⟩
    have he : pre' ++ [a] ++ [p] = pre' ++ a :: p :: [] := by simp
    rw [he] at hasc
    have hap : a.1 < p.1 := ascending_pair hasc
    exact ⟨pre', a, p, [], he, Or.inr hap.le, Or.inl rfl, (lineThrough_right hap).symm⟩

theorem readCrustField_ok_iff (rows : List (ℝ × ℝ)) (sp : Spline ℝ) :
    readCrustField rows = .ok sp ↔ 2 ≤ rows.length ∧ Ascending rows ∧ sp = ⟨rows.map fun r => (r.1, r.2 + 273.15)⟩ := by
  unfold readCrustField
  rw [make_ok_iff, List.zip_map']
  have ha : Ascending (rows.map fun r => (r.1, r.2 + 273.15)) ↔ Ascending rows := by
    unfold Ascending; rw [List.pairwise_map]
  rw [ha]
  simp

/-- **C76**. A crust-temperature profile of distances and degrees Celsius is accepted exactly if it has at least two rows
    with strictly increasing distances. The crust temperature at a distance is then the linear interpolation of the
    profile in kelvin, whatever the configured constant is, and at a listed distance the listed temperature. -/
theorem C76_field_crust (rows : List (ℝ × ℝ)) :
    ((∃ sp, readCrustField rows = .ok sp) ↔ 2 ≤ rows.length ∧ Ascending rows) ∧
    ∀ sp, readCrustField rows = .ok sp → ∀ (T0 : ℝ) (s : FlowState ℝ),
      (∃ T, (CrustModel.field T0 (some sp)).temperature s = .ok T) ∧
      (∀ T, (CrustModel.field T0 (some sp)).temperature s = .ok T ↔
        Interpolates (rows.map fun r => (r.1, r.2 + 273.15)) s.pos T) ∧
      ∀ r ∈ rows, s.pos = r.1 → (CrustModel.field T0 (some sp)).temperature s = .ok (r.2 + 273.15) := by
  constructor
  · constructor
    · rintro ⟨sp, h⟩
      have := (readCrustField_ok_iff rows sp).mp h
      exact ⟨this.1, this.2.1⟩
    · rintro ⟨h1, h2⟩
      exact ⟨_, (readCrustField_ok_iff rows _).mpr ⟨h1, h2, rfl⟩⟩
  · intro sp h T0 s
    obtain ⟨h1, h2, rfl⟩ := (readCrustField_ok_iff rows sp).mp h
    have hlen : 2 ≤ (rows.map fun r => (r.1, r.2 + 273.15)).length := by simpa using h1
    have hasc : Ascending (rows.map fun r => (r.1, r.2 + (273.15 : ℝ))) := by
      unfold Ascending at *; rw [List.pairwise_map]; exact h2
    have key : ∀ T, (CrustModel.field T0 (some ⟨rows.map fun r => (r.1, r.2 + 273.15)⟩)).temperature s = .ok T ↔
        Interpolates (rows.map fun r => (r.1, r.2 + 273.15)) s.pos T := fun T => evalKnots_iff _ hlen hasc s.pos T
    refine ⟨evalKnots_total _ hlen hasc s.pos, key, fun r hr hpos => ?_⟩
    rw [key, hpos]
    exact interpolates_entry hlen hasc (p := (r.1, r.2 + 273.15)) (List.mem_map.mpr ⟨r, hr, rfl⟩)

/-- **C76**: without a profile the configured constant is the crust temperature everywhere. -/
theorem C76_field_without_profile (T0 : ℝ) (s : FlowState ℝ) : (CrustModel.field T0 none).temperature s = .ok T0 := rfl

/-- **C76**. The profile file as text: any line ending; the first two columns count. -/
theorem C76_crust_file (pf : List Char → Option ℝ) (e : Eol) (header : List Char) (hh : OneLine header)
    (rows : List (List (List Char))) (hr : ∀ r ∈ rows, CleanRow r) (table : List (ℝ × ℝ))
    (ht : List.Forall₂ (fun r (p : ℝ × ℝ) => (r.take 2).map pf = [some p.1, some p.2]) rows table) :
    readCrustText pf (tabFile e true header rows) = readCrustField table := by
  unfold readCrustText
  rw [(C73_crust_profile pf e header hh rows hr table).mpr, ok_bind]
  refine ht.imp fun r p h => ?_
  match r, h with
  | [], h => simp at h
  | [a], h => simp at h
  | a :: b :: r, h =>
    simp only [List.take_succ_cons, List.take_zero, List.map_cons, List.map_nil, List.cons.injEq, and_true] at h
    exact ⟨a, b, p.1, p.2, rfl, rfl, h.1, h.2, rfl⟩

theorem meltsRows_ok_iff (pf : List Char → Option ℝ) (dicts : List (List (List Char × Option (List Char))))
    (table : List (ℝ × ℝ)) :
    meltsRows pf dicts = .ok table ↔
      List.Forall₂ (fun d (p : ℝ × ℝ) => dictFloat pf d "temperature" = .ok p.1 ∧ dictFloat pf d "fraq_microlite" = .ok p.2)
        dicts table := by
  induction dicts generalizing table with
  | nil =>
    rw [meltsRows, Except.ok.injEq]
    constructor
    · rintro rfl; exact .nil
    · intro h; cases h; rfl
  | cons d ds ih =>
    rw [meltsRows]
    constructor
    · intro h
      obtain ⟨t, h1, h⟩ := bind_ok_iff.mp h
      obtain ⟨f, h2, h⟩ := bind_ok_iff.mp h
      obtain ⟨rest, h', h⟩ := bind_ok_iff.mp h
      rw [pure_ok_iff] at h
      subst h
      exact .cons ⟨h1, h2⟩ ((ih _).mp h')
    · intro h
      obtain _ | ⟨h1, h2⟩ := h
      rw [h1.1, h1.2, (ih _).mpr h2]
      rfl

/-- **C76**. The MELTS file: a csv table with columns in any order; only `temperature` and `fraq_microlite` count. -/
theorem C76_melts_file (pf : List Char → Option ℝ) (header : List String) (rows : List (List (List Char))) (windows : Bool)
    (hn : header.Nodup) (hch : ∀ n ∈ header, '\r' ∉ n.toList) (hcr : ∀ r ∈ rows, ∀ f ∈ r, '\r' ∉ f)
    (hlen : ∀ r ∈ rows, r.length = header.length) (i j : ℕ) (hi : header[i]? = some "temperature")
    (hj : header[j]? = some "fraq_microlite") (table : List (ℝ × ℝ))
    (ht : List.Forall₂ (fun (r : List (List Char)) (p : ℝ × ℝ) =>
      (r[i]?).bind pf = some p.1 ∧ (r[j]?).bind pf = some p.2) rows table) :
    readMeltsText pf (stored windows (csvWrite ',' (header.map String.toList :: rows))) = readMelts table := by
  have hh : header ≠ [] := by rintro rfl; simp at hi
  unfold readMeltsText
  rw [dictRead_write comma_delim _ _ (by simpa using hh) (fun r hr h0 => hh (List.length_eq_zero_iff.mp (by rw [← hlen r hr, h0]; rfl)))
    (by intro f hf; obtain ⟨n, h1, rfl⟩ := List.mem_map.mp hf; exact hch n h1) hcr, ok_bind]
  have key : ∀ (r : List (List Char)) (k : ℕ) (n : String) (x : ℝ), r.length = header.length → header[k]? = some n →
      (r[k]?).bind pf = some x → dictFloat pf (dictZip (header.map String.toList) r) n = .ok x := by
    intro r k n x hl hk hx
    unfold dictFloat
    rw [dictField_zip header r k n hn hl hk, ok_bind]
    cases hr : r[k]? with
    | none => rw [hr] at hx; cases hx
    | some f =>
      rw [hr, Option.bind_some] at hx
      simp [ok_bind, hx]
  rw [(meltsRows_ok_iff pf _ table).mpr, ok_bind]
  rw [List.forall₂_map_left_iff]
  clear hcr
  induction ht with
  | nil => exact .nil
  | @cons r p rows table h1 _ ih =>
    refine .cons ⟨key r i _ _ (hlen r (by simp)) hi h1.1, key r j _ _ (hlen r (by simp)) hj h1.2⟩
      (ih fun x hx => hlen x (by simp [hx]))

/-- **C76**: two crust rows are accepted and give 1000 + 273.15 at the first. -/
example (s : FlowState ℝ) (hs : s.pos = 0) : ∃ sp, readCrustField [((0 : ℝ), (1000 : ℝ)), (50, 900)] = .ok sp ∧
    (CrustModel.field 1 (some sp)).temperature s = .ok (1000 + 273.15) := by
  obtain ⟨sp, h⟩ := (C76_field_crust [((0 : ℝ), (1000 : ℝ)), (50, 900)]).1.mpr ⟨by simp, by simp [Ascending]⟩
  exact ⟨sp, h, ((C76_field_crust _).2 sp h 1 _).2.2 (0, 1000) (by simp) hs⟩

/-- **C76**: a MELTS file with an additional column and swapped order. -/
example : ∃ (pf : List Char → Option ℝ) (rows : List (List (List Char))) (table : List (ℝ × ℝ)) (sp : Spline ℝ),
    readMeltsText pf (csvWrite ',' (["x", "fraq_microlite", "temperature"].map String.toList :: rows)) = .ok sp ∧
    readMelts table = .ok sp ∧ table.length = 2 := by
  let pf : List Char → Option ℝ := fun f => match f with
    | ['1'] => some 1 | ['2'] => some 2 | _ => none
  have h := C76_melts_file pf ["x", "fraq_microlite", "temperature"]
    [[[], ['2'], ['1']], [['"'], ['1'], ['2']]] false (by decide) (by decide) (by decide) (by decide) 2 1 rfl rfl
    [(1, 2), (2, 1)] (.cons ⟨rfl, rfl⟩ (.cons ⟨rfl, rfl⟩ .nil))
  refine ⟨pf, [[[], ['2'], ['1']], [['"'], ['1'], ['2']]], [(1, 2), (2, 1)], _, ?_, (C62_table_accepted _ _).mpr ⟨by simp, by simp [Ascending], rfl⟩, rfl⟩
  exact h.trans ((C62_table_accepted _ _).mpr ⟨by simp, by simp [Ascending], rfl⟩)

end PyFlowGo
