import Mathlib.Tactic.Linarith
import Verif.Sim.CsvModel

/-! C22: the columns of the report. -/

namespace Simple.Csv

/-- Specification: how a reader of comma separated values splits a line. -/
def Spec.fields : Text → List Text
  | [] => [[]]
  | c :: cs =>
    if c = ',' then [] :: Spec.fields cs
    else
      match Spec.fields cs with
      | [] => [[c]]
      | f :: fs => (c :: f) :: fs

/-- A text without commas. -/
def Spec.CommaFree (t : Text) : Prop := ',' ∉ t

theorem fields_self {t : Text} (h : Spec.CommaFree t) : Spec.fields t = [t] := by
  induction t with
  | nil => rfl
  | cons c t ih =>
    unfold Spec.CommaFree at h ih
    simp only [List.mem_cons, not_or] at h
    rw [Spec.fields, if_neg (Ne.symm h.1), ih h.2]

theorem fields_append {t : Text} (h : Spec.CommaFree t) (rest : Text) :
    Spec.fields (t ++ ',' :: rest) = t :: Spec.fields rest := by
  induction t with
  | nil => rw [List.nil_append, Spec.fields, if_pos rfl]
  | cons c t ih =>
    unfold Spec.CommaFree at h ih
    simp only [List.mem_cons, not_or] at h
    rw [List.cons_append, Spec.fields, if_neg (Ne.symm h.1), ih h.2]

theorem commaFree_flatten {fs : List Text} (h : ∀ f ∈ fs, Spec.CommaFree f) : Spec.CommaFree fs.flatten := by
  unfold Spec.CommaFree at *
  simp only [List.mem_flatten, not_exists, not_and]
  exact fun f hf => h f hf

theorem writeFields_last (r i : ℕ) (fs : List Text) (h : r - 1 ≤ i) : writeFields r i fs = fs.flatten := by
  induction fs generalizing i with
  | nil => rfl
  | cons f fs ih => rw [writeFields, if_neg (by omega), ih _ (by omega), List.flatten_cons]

theorem fields_writeFields (r i : ℕ) (fs : List Text) (h : ∀ f ∈ fs, Spec.CommaFree f) :
    Spec.fields (writeFields r i fs) = fs.take (r - 1 - i) ++ [(fs.drop (r - 1 - i)).flatten] := by
  induction fs generalizing i with
  | nil => simp [writeFields, Spec.fields]
  | cons f fs ih =>
    by_cases hi : i < r - 1
    · rw [writeFields, if_pos hi, List.append_assoc, List.singleton_append,
        fields_append (h f (by simp)), ih _ (fun g hg => h g (List.mem_cons_of_mem _ hg))]
      obtain ⟨d, hd⟩ : ∃ d, r - 1 - i = d + 1 := ⟨r - 1 - i - 1, by omega⟩
      rw [hd, show r - 1 - (i + 1) = d by omega]
      simp
    · rw [writeFields_last r i _ (by omega), fields_self (commaFree_flatten h),
        show r - 1 - i = 0 by omega]
      simp

theorem at_mem (l : List Text) (i : ℕ) (h : ∀ t ∈ l, Spec.CommaFree t) : Spec.CommaFree (at' l i) := by
  unfold at'
  rcases lt_or_ge i l.length with hi | hi
  · rw [List.getD_eq_getElem?_getD, List.getElem?_eq_getElem hi, Option.getD_some]
    exact h _ (List.getElem_mem hi)
  · rw [List.getD_eq_getElem?_getD, List.getElem?_eq_none hi]
    simp [Spec.CommaFree]

/-- The code only indexes within the header. -/
theorem reportIndexes_lt (hd outs : List Text) : ∀ i ∈ reportIndexes hd outs, i < hd.length := by
  intro i hi
  unfold reportIndexes at hi
  simp only at hi
  split_ifs at hi with hf
  · simpa using hi
  · obtain ⟨o, ho, h2⟩ := List.mem_filterMap.1 hi
    obtain ⟨h3, -⟩ := List.findIdx?_eq_some_iff_getElem.1 h2
    exact h3

/-- The exact columns that a reader sees, for every header and list of outputs: all but the last
`report_len - 1` fields are separate, and the rest run together. -/
theorem line_fields (first : Text) (r : ℕ) (fs : List Text) (h1 : Spec.CommaFree first)
    (h2 : ∀ f ∈ fs, Spec.CommaFree f) :
    Spec.fields (first ++ [','] ++ writeFields r 0 fs) =
      first :: (fs.take (r - 1) ++ [(fs.drop (r - 1)).flatten]) := by
  rw [List.append_assoc, List.singleton_append, fields_append h1, fields_writeFields r 0 fs h2]
  simp

/-- **C22** (rows match the header).  When no name, date or value has a comma, every row has exactly
as many columns as the header line, whatever outputs were requested. -/
theorem C22_rows_match_header (hd outs : List Text) (date : Text) (values : List Text)
    (hn : ∀ n ∈ hd, Spec.CommaFree n) (hdate : Spec.CommaFree date)
    (hv : ∀ v ∈ values, Spec.CommaFree v) :
    (Spec.fields (rowLine hd outs date values)).length = (Spec.fields (headerLine hd outs)).length := by
  unfold rowLine headerLine
  rw [line_fields _ _ _ hdate, line_fields _ _ _ (by unfold Spec.CommaFree; decide)]
  · simp
  · intro f hf
    obtain ⟨i, -, rfl⟩ := List.mem_map.1 hf
    exact at_mem _ _ hn
  · intro f hf
    obtain ⟨i, -, rfl⟩ := List.mem_map.1 hf
    exact at_mem _ _ hv

/-- The position of a requested output in the header (the first one, if several have the name). -/
def Spec.IsPosition (hd : List Text) (o : Text) (i : ℕ) : Prop :=
  hd[i]? = some o ∧ ∀ j < i, hd[j]? ≠ some o

theorem findIdx_position (hd : List Text) (o : Text) (i : ℕ) :
    (hd.findIdx? fun x => x == o) = some i ↔ Spec.IsPosition hd o i := by
  rw [List.findIdx?_eq_some_iff_getElem]
  unfold Spec.IsPosition
  constructor
  · rintro ⟨h1, h2, h3⟩
    refine ⟨by rw [List.getElem?_eq_getElem h1]; simpa using h2, fun j hj => ?_⟩
    rw [List.getElem?_eq_getElem (by omega)]
    simpa using h3 j hj
  · rintro ⟨h1, h2⟩
    have hi : i < hd.length := by
      by_contra hc
      rw [List.getElem?_eq_none (by omega)] at h1
      simp at h1
    refine ⟨hi, ?_, fun j hj => ?_⟩
    · rw [List.getElem?_eq_getElem hi] at h1; simpa using h1
    · have := h2 j hj
      rw [List.getElem?_eq_getElem (by omega)] at this
      simpa using this

/-- `run` with every requested output in the header: one index per output. -/
theorem reportIndexes_known (hd outs : List Text) (h : ∀ o ∈ outs, o ∈ hd) (hne : outs ≠ []) :
    (reportIndexes hd outs).length = outs.length ∧
    (reportIndexes hd outs).map (at' hd) = outs ∧
    List.Forall₂ (Spec.IsPosition hd) outs (reportIndexes hd outs) := by
  have key : ∀ os : List Text, (∀ o ∈ os, o ∈ hd) →
      (os.filterMap fun item => hd.findIdx? fun x => x == item).map (at' hd) = os ∧
      List.Forall₂ (Spec.IsPosition hd) os (os.filterMap fun item => hd.findIdx? fun x => x == item) := by
    intro os
    induction os with
    | nil => intro _; exact ⟨rfl, .nil⟩
    | cons o os ih =>
      intro ho
      obtain ⟨i1, i2⟩ := ih (fun x hx => ho x (List.mem_cons_of_mem _ hx))
      have hmem := ho o (by simp)
      cases hf : hd.findIdx? (fun x => x == o) with
      | none =>
        rw [List.findIdx?_eq_none_iff] at hf
        simpa using hf o hmem
      | some i =>
        have hp := (findIdx_position hd o i).1 hf
        rw [List.filterMap_cons, hf]
        refine ⟨?_, .cons hp i2⟩
        simp only [List.map_cons]
        rw [i1]
        congr 1
        unfold at'
        rw [List.getD_eq_getElem?_getD, hp.1, Option.getD_some]
  obtain ⟨k1, k2⟩ := key outs h
  unfold reportIndexes
  simp only
  have hf : (outs.filterMap fun item => hd.findIdx? fun x => x == item) ≠ [] := by
    intro hc
    rw [hc] at k1
    exact hne k1.symm
  rw [if_neg hf]
  refine ⟨?_, k1, k2⟩
  conv_rhs => rw [← k1]
  simp

theorem take_drop_last (fs : List Text) (hne : fs ≠ []) :
    fs.take (fs.length - 1) ++ [(fs.drop (fs.length - 1)).flatten] = fs := by
  obtain ⟨l, a, rfl⟩ : ∃ l a, fs = l ++ [a] :=
    ⟨fs.dropLast, fs.getLast hne, (List.dropLast_append_getLast hne).symm⟩
  simp

/-- **C22** (requested outputs; what holds).  When every requested output is an element of the state,
and no name has a comma, the header is the date followed by the requested outputs in the order they
were requested, and each row is the date followed by the value of each of them.  Missing from the
property: outputs that are not elements of the state, see `C22_violated_some_unknown` and
`C22_violated_all_unknown`. -/
theorem C22_requested_partial (hd outs : List Text) (h : ∀ o ∈ outs, o ∈ hd) (hne : outs ≠ [])
    (hn : ∀ n ∈ hd, Spec.CommaFree n) :
    Spec.fields (headerLine hd outs) = "Date".toList :: outs ∧
    ∀ date values, Spec.CommaFree date → (∀ v ∈ values, Spec.CommaFree v) → values.length = hd.length →
      ∃ row, Spec.fields (rowLine hd outs date values) = date :: row ∧
        List.Forall₂ (fun o v => ∃ i, Spec.IsPosition hd o i ∧ values[i]? = some v) outs row := by
  obtain ⟨k1, k2, k3⟩ := reportIndexes_known hd outs h hne
  have hr : reportLen hd outs = outs.length := by unfold reportLen; rw [if_neg hne]
  constructor
  · unfold headerLine
    rw [k2, hr, line_fields _ _ _ (by unfold Spec.CommaFree; decide) (fun f hf => hn f (h f hf)),
      take_drop_last _ hne]
  · intro date values h1 h2 h3
    refine ⟨(reportIndexes hd outs).map (at' values), ?_, ?_⟩
    · unfold rowLine
      rw [hr, line_fields _ _ _ h1]
      · have hlen : outs.length = ((reportIndexes hd outs).map (at' values)).length := by simp [k1]
        have hne' : (reportIndexes hd outs).map (at' values) ≠ [] := by
          intro hc
          rw [hc] at hlen
          exact hne (List.eq_nil_of_length_eq_zero (by simpa using hlen))
        rw [hlen, take_drop_last _ hne']
      · intro f hf
        obtain ⟨i, -, rfl⟩ := List.mem_map.1 hf
        exact at_mem _ _ h2
    · have key : ∀ (os : List Text) (idx : List ℕ), List.Forall₂ (Spec.IsPosition hd) os idx →
          (∀ i ∈ idx, i < hd.length) →
          List.Forall₂ (fun o v => ∃ i, Spec.IsPosition hd o i ∧ values[i]? = some v) os
            (idx.map (at' values)) := by
        intro os idx hpos
        induction hpos with
        | nil => intro _; exact .nil
        | @cons o i os idx hp _ ih =>
          intro hlt
          refine .cons ⟨i, hp, ?_⟩ (ih fun j hj => hlt j (List.mem_cons_of_mem _ hj))
          have hi : i < values.length := h3 ▸ hlt i (by simp)
          unfold at'
          rw [List.getD_eq_getElem?_getD, List.getElem?_eq_getElem hi, Option.getD_some]
      exact key _ _ k3 (reportIndexes_lt hd outs)

/-- **C22** (no outputs requested).  Then every element of the state is reported, in order. -/
theorem C22_all_elements (hd : List Text) (hne : hd ≠ []) (hn : ∀ n ∈ hd, Spec.CommaFree n) :
    Spec.fields (headerLine hd []) = "Date".toList :: hd ∧
    ∀ date values, Spec.CommaFree date → (∀ v ∈ values, Spec.CommaFree v) → values.length = hd.length →
      Spec.fields (rowLine hd [] date values) = date :: values := by
  have hmap : ∀ l : List Text, (List.range l.length).map (at' l) = l := by
    intro l
    apply List.ext_getElem
    · simp
    · intro i h1 h2
      simp only [List.getElem_map, List.getElem_range]
      unfold at'
      rw [List.getD_eq_getElem?_getD, List.getElem?_eq_getElem h2, Option.getD_some]
  have hi : reportIndexes hd [] = List.range hd.length := by simp [reportIndexes]
  have hr : reportLen hd [] = hd.length := by simp [reportLen]
  constructor
  · unfold headerLine
    rw [hi, hr, hmap, line_fields _ _ _ (by unfold Spec.CommaFree; decide) hn, take_drop_last _ hne]
  · intro date values h1 h2 h3
    unfold rowLine
    rw [hi, hr, ← h3, hmap, line_fields _ _ _ h1 h2, take_drop_last]
    intro hc
    rw [hc] at h3
    exact hne (List.eq_nil_of_length_eq_zero (by simpa using h3.symm))

/-- A header with three elements. -/
def demoHeader : List Text := ["aa".toList, "bb".toList, "cc".toList]

example : Spec.fields (headerLine demoHeader ["cc".toList, "aa".toList]) =
    ["Date".toList, "cc".toList, "aa".toList] ∧
    Spec.fields (rowLine demoHeader ["cc".toList, "aa".toList] "d".toList
      ["1.000".toList, "2.000".toList, "3.000".toList]) = ["d".toList, "3.000".toList, "1.000".toList] := by
  decide +kernel

/-- **C22** is violated when some requested output is not an element of the state: the last field is
followed by a comma, and a reader sees one more, empty, column. -/
theorem C22_violated_some_unknown :
    Spec.fields (headerLine demoHeader ["bb".toList, "zz".toList]) = ["Date".toList, "bb".toList, []] := by
  decide +kernel

/-- **C22** is violated when no requested output is an element of the state: all the elements are
reported instead, but the separators are those of the requested ones, and the columns run together. -/
theorem C22_violated_all_unknown :
    Spec.fields (headerLine demoHeader ["zz".toList]) = ["Date".toList, "aabbcc".toList] ∧
    Spec.fields (rowLine demoHeader ["zz".toList] "d".toList
      ["1.000".toList, "2.000".toList, "3.000".toList]) = ["d".toList, "1.0002.0003.000".toList] := by
  decide +kernel

/-- **C22** is violated when the name of an element has a comma (it is not quoted): the header has
more columns than the rows. -/
theorem C22_violated_comma :
    (Spec.fields (headerLine ["a,b".toList] [])).length = 3 ∧
    (Spec.fields (rowLine ["a,b".toList] [] "d".toList ["1.000".toList])).length = 2 := by
  decide +kernel

end Simple.Csv
