import Verif.Proofs.JsonDump
import Verif.Props.Sweep
/-
  C79: configuration files as texts.
-/
set_option linter.unusedSectionVars false
namespace PyFlowGo
open Spec
variable {α : Type}

theorem jsonLoads_iff (pf : List Char → Option α) (u : List Char) (j : Json α) :
    jsonLoads pf u = .ok j ↔ JsonText pf u j := by
  unfold jsonLoads
  constructor
  · intro h
    split at h
    · simp at h
    · rename_i v r hv
      split at h
      · rename_i hr
        simp only [Except.ok.injEq] at h
        subst h
        obtain ⟨t, e, ht⟩ := (scan_sound pf _).1 _ _ _ hv
        obtain ⟨w₁, h1, hw₁⟩ := skipWs_sound u
        obtain ⟨w₂, h2, hw₂⟩ := skipWs_sound r
        rw [hr, List.append_nil] at h2
        exact ⟨w₁, t, r, by rw [h1, e]; simp, hw₁, ht, h2 ▸ hw₂⟩
      · simp at h
  · rintro ⟨w₁, t, w₂, rfl, hw₁, ht, hw₂⟩
    obtain ⟨c, s, hs, hc, _⟩ := valueText_head pf ht
    have e : w₁ ++ t ++ w₂ = w₁ ++ (t ++ w₂) := by simp
    have h0 : NumFollow w₂ := by
      have := numFollow_ws hw₂ (r := []) (fun c hc => by simp at hc)
      simpa using this
    rw [e, skipWs_append hw₁ (by rw [head_append hs]; simpa using hc),
      scanValue_complete pf ht _ w₂ (by simp; omega) h0]
    have h1 : skipWs w₂ = [] := by
      have := skipWs_append (r := []) hw₂ (by simp)
      simpa using this
    simp [h1]

theorem jsonLoad_iff (pf : List Char → Option α) (text : List Char) (j : Json α) :
    jsonLoad pf text = .ok j ↔ JsonText pf (universal text) j := jsonLoads_iff pf _ j

theorem universal_noCr {t : List Char} (h : '\r' ∉ t) : universal t = t := by
  have := universal_clean t [] h
  simpa [universal, universalFrom] using this

theorem universal_storedText {t : List Char} (h : '\r' ∉ t) (windows : Bool) : universal (stored windows t) = t := by
  cases windows with
  | false => exact universal_noCr h
  | true =>
    have := universal_stored t [] h
    simpa [universal, universalFrom] using this

/-- **C79**. `json.load` reads exactly the texts of the JSON grammar, with the value the grammar gives them. -/
theorem C79_load_is_the_grammar (pf : List Char → Option α) (text : List Char) (h : '\r' ∉ text) (j : Json α) :
    jsonLoad pf text = .ok j ↔ JsonText pf text j := by
  rw [jsonLoad_iff, universal_noCr h]

/-- **C79**: every other text is refused with a ValueError (JSONDecodeError). -/
theorem C79_other_texts_refused (pf : List Char → Option α) (text : List Char) (h : '\r' ∉ text)
    (hn : ¬ ∃ j, JsonText pf text j) : jsonLoad pf text = .error .valueError := by
  cases hj : jsonLoad pf text with
  | ok j => exact absurd ⟨j, (C79_load_is_the_grammar pf text h j).mp hj⟩ hn
  | error e =>
    unfold jsonLoad jsonLoads at hj
    split at hj
    · simpa using hj.symm
    · split at hj
      · simp at hj
      · simpa using hj.symm

/-- **C79**: a text has at most one value. -/
theorem C79_unambiguous (pf : List Char → Option α) (text : List Char) (h : '\r' ∉ text) (j j' : Json α)
    (h1 : JsonText pf text j) (h2 : JsonText pf text j') : j = j' := by
  rw [← C79_load_is_the_grammar pf text h] at h1 h2
  rw [h1] at h2
  simpa using h2

/-- **C79**: line endings do not matter: a text stored with Windows line endings reads as the text. -/
theorem C79_line_endings (pf : List Char → Option α) (text : List Char) (h : '\r' ∉ text) :
    jsonLoad pf (stored true text) = jsonLoad pf text := by
  unfold jsonLoad
  rw [universal_storedText h true, universal_noCr h]

theorem readable_ascii {pf : List Char → Option α} {sn : α → List Char} {j : Json α} (h : NumsAll (Readable pf sn) j) :
    ∀ c ∈ jsonDump sn j, Ascii c :=
  dumpValue_plain sn 0 j (NumsAll.mono (fun _ h => h.1) j h)

theorem ascii_noCr {t : List Char} (h : ∀ c ∈ t, Ascii c) : '\r' ∉ t := by
  intro hr
  rcases h _ hr with h | h
  · exact absurd h (by decide)
  · exact absurd h.1 (by decide)

/-- **C79**. What `json.dump` writes, `json.load` reads back as the same value, on both platforms. -/
theorem C79_round_trip (pf : List Char → Option α) (sn : α → List Char) (j : Json α) (hd : DistinctKeys j)
    (hn : NumsAll (Readable pf sn) j) (windows : Bool) : jsonLoad pf (stored windows (jsonDump sn j)) = .ok j := by
  rw [jsonLoad_iff, universal_storedText (ascii_noCr (readable_ascii hn))]
  exact ⟨[], _, [], by simp [jsonDump], by simp [Ws], dumpValue_text pf sn 0 j hd hn, by simp [Ws]⟩

/-- **C79**. The text written consists of printable ASCII characters and line feeds, whatever the names contain: the
    encoding of the platform does not matter. -/
theorem C79_written_in_ascii (sn : α → List Char) (j : Json α) (h : NumsAll (fun x => RealText (sn x) ∨ FloatConstant (sn x)) j) :
    ∀ c ∈ jsonDump sn j, Ascii c := dumpValue_plain sn 0 j h

theorem distinctMembers_iff (l : List (String × Json α)) : DistinctMembers l ↔ ∀ p ∈ l, DistinctKeys p.2 := by
  induction l with
  | nil => simp [DistinctMembers]
  | cons p l ih => obtain ⟨k, v⟩ := p; simp [DistinctMembers, ih]

theorem numsMembers_iff (P : α → Prop) (l : List (String × Json α)) : NumsMembers P l ↔ ∀ p ∈ l, NumsAll P p.2 := by
  induction l with
  | nil => simp [NumsMembers]
  | cons p l ih => obtain ⟨k, v⟩ := p; simp [NumsMembers, ih]

theorem json_lookup_of_mem {ν : Type} {d : List (String × ν)} (hn : (d.map Prod.fst).Nodup) {p : String × ν} (hp : p ∈ d) :
    lookup d p.1 = some p.2 := by
  induction d with
  | nil => simp at hp
  | cons q d ih =>
    rw [List.map_cons, List.nodup_cons] at hn
    rw [lookup_cons_eq]
    rcases List.mem_cons.mp hp with rfl | hp
    · simp
    · rw [if_neg, ih hn.2 hp]
      intro e
      exact hn.1 (e ▸ List.mem_map.mpr ⟨p, hp, rfl⟩)

theorem json_mem_of_lookup {ν : Type} {d : List (String × ν)} {k : String} {v : ν} (h : lookup d k = some v) : (k, v) ∈ d := by
  unfold lookup at h
  rw [Option.map_eq_some_iff] at h
  obtain ⟨p, hp, rfl⟩ := h
  have h1 := List.mem_of_find?_eq_some hp
  have h2 := List.find?_some hp
  have : p.1 = k := by simpa using h2
  rw [← this]; exact h1

theorem valueText_distinct (pf : List Char → Option α) {t : List Char} {j : Json α} (h : ValueText pf t j) : DistinctKeys j := by
  refine ValueText.rec (pf := pf) (motive_1 := fun _ j _ => DistinctKeys j) (motive_2 := fun _ l _ => DistinctElements l)
    (motive_3 := fun _ l _ => DistinctMembers l) ?_ ?_ ?_ ?_ ?_ ?_ ?_ ?_ ?_ ?_ ?_ ?_ ?_ ?_ h
  · simp [DistinctKeys]
  · simp [DistinctKeys]
  · simp [DistinctKeys]
  · intros; simp [DistinctKeys]
  · intros; simp [DistinctKeys]
  · intros; simp [DistinctKeys]
  · intros; simp [DistinctKeys, DistinctElements]
  · intro _ _ _ h; rw [DistinctKeys]; exact h
  · intros; simp [DistinctKeys, DistinctMembers]
  · intro _ ps d _ hd h
    rw [DistinctKeys]
    refine ⟨members_nodup hd, (distinctMembers_iff d).mpr fun p hp => ?_⟩
    have h1 := json_lookup_of_mem (members_nodup hd) hp
    rw [hd.2] at h1
    exact (distinctMembers_iff ps).mp h _ (List.mem_reverse.mp (json_mem_of_lookup h1))
  · intro _ _ _ v _ _ _ h; simp only [DistinctElements]; exact ⟨h, trivial⟩
  · intro _ _ _ _ v vs _ _ _ _ h hs; rw [DistinctElements]; exact ⟨h, hs⟩
  · intro _ _ _ _ _ _ _ _ _ _ _ _ _ _ h; simp only [DistinctMembers]; exact ⟨h, trivial⟩
  · intro _ _ _ _ _ _ _ _ _ _ _ _ _ _ _ _ _ h hs; rw [DistinctMembers]; exact ⟨h, hs⟩

/-- **C79**. A loaded value has distinct keys in every object; a key written more than once has its last value. -/
theorem C79_loaded_keys_distinct (pf : List Char → Option α) (text : List Char) (j : Json α) (h : jsonLoad pf text = .ok j) :
    DistinctKeys j := by
  obtain ⟨_, t, _, _, _, ht, _⟩ := (jsonLoad_iff pf text j).mp h
  exact valueText_distinct pf ht

theorem set_distinct {base d v : Json α} {k : String} (h : base.set k v = .ok d) (hb : DistinctKeys base) (hv : DistinctKeys v) :
    DistinctKeys d := by
  unfold Json.set at h
  split at h
  · rename_i l
    rw [DistinctKeys, distinctMembers_iff] at hb
    split at h
    · rename_i hk
      simp only [Except.ok.injEq] at h
      subst h
      rw [DistinctKeys, distinctMembers_iff]
      constructor
      · rw [List.map_map]
        have : (Prod.fst ∘ fun kv : String × Json α => if (kv.1 == k) = true then (kv.1, v) else kv) = Prod.fst := by
          funext p; simp only [Function.comp]; split <;> rfl
        rw [this]; exact hb.1
      · intro p hp
        obtain ⟨q, hq, rfl⟩ := List.mem_map.mp hp
        split
        · exact hv
        · exact hb.2 q hq
    · rename_i hk
      simp only [Except.ok.injEq] at h
      subst h
      rw [DistinctKeys, distinctMembers_iff]
      constructor
      · rw [List.map_append, List.nodup_append]
        refine ⟨hb.1, by simp, ?_⟩
        intro a ha b hb' e
        subst e
        simp only [List.map_cons, List.map_nil, List.mem_singleton] at hb'
        subst hb'
        exact hk ((lookup_isSome_iff l _).mpr ha)
      · intro p hp
        rcases List.mem_append.mp hp with hp | hp
        · exact hb.2 p hp
        · rw [List.mem_singleton.mp hp]; exact hv
  · simp at h

theorem set_nums {P : α → Prop} {base d v : Json α} {k : String} (h : base.set k v = .ok d) (hb : NumsAll P base) (hv : NumsAll P v) :
    NumsAll P d := by
  unfold Json.set at h
  split at h
  · rename_i l
    rw [NumsAll, numsMembers_iff] at hb
    split at h
    · simp only [Except.ok.injEq] at h
      subst h
      rw [NumsAll, numsMembers_iff]
      intro p hp
      obtain ⟨q, hq, rfl⟩ := List.mem_map.mp hp
      split
      · exact hv
      · exact hb q hq
    · simp only [Except.ok.injEq] at h
      subst h
      rw [NumsAll, numsMembers_iff]
      intro p hp
      rcases List.mem_append.mp hp with hp | hp
      · exact hb p hp
      · rw [List.mem_singleton.mp hp]; exact hv
  · simp at h

/-- **C79**. Rewriting a configuration file (a sweep's working copy, a vent's configuration): the new file is read as a
    configuration in which every updated entry has its last new value and every other entry is that of the old file. -/
theorem C79_rewritten_file (pf : List Char → Option α) (sn : α → List Char) (updates : List (String × Json α))
    (text out : List Char) (data : Json α) (hl : jsonLoad pf text = .ok data) (hn : NumsAll (Readable pf sn) data)
    (hu : ∀ u ∈ updates, DistinctKeys u.2 ∧ NumsAll (Readable pf sn) u.2)
    (h : rewriteText pf sn updates text = .ok out) (windows : Bool) :
    ∃ d, jsonLoad pf (stored windows out) = .ok d ∧
      ∀ k v, TopEntry d k v ↔
        (lookup updates.reverse k = some v ∨ lookup updates.reverse k = none ∧ TopEntry data k v) := by
  unfold rewriteText at h
  rw [hl, ok_bind] at h
  obtain ⟨d, hd, he⟩ := bind_ok_iff.mp h
  clear h
  rw [pure_ok_iff] at he
  subst he
  have hk := C79_loaded_keys_distinct pf text data hl
  clear hl
  have key : DistinctKeys d ∧ NumsAll (Readable pf sn) d ∧ ∀ k v, TopEntry d k v ↔
        (lookup updates.reverse k = some v ∨ lookup updates.reverse k = none ∧ TopEntry data k v) := by
    induction updates generalizing data with
    | nil =>
      rw [List.foldlM_nil, pure_ok_iff] at hd
      subst hd
      exact ⟨hk, hn, fun k v => by simp [lookup]⟩
    | cons u us ih =>
      rw [List.foldlM_cons] at hd
      obtain ⟨d1, h1, h2⟩ := bind_ok_iff.mp hd
      have hu1 := hu u (by simp)
      obtain ⟨a, b, c⟩ := ih d1 (set_nums h1 hn hu1.2) (fun x hx => hu x (by simp [hx])) h2 (set_distinct h1 hk hu1.1)
      refine ⟨a, b, fun k v => ?_⟩
      obtain ⟨s1, s2⟩ := set_spec _ _ _ _ h1
      rw [c, List.reverse_cons, lookup_append_or, lookup_cons_eq]
      cases hlk : lookup us.reverse k with
      | some x => simp
      | none =>
        by_cases e : u.1 = k
        · subst e
          have : TopEntry d1 u.1 v ↔ u.2 = v := by
            constructor
            · rintro ⟨l, rfl, hv⟩
              obtain ⟨l', e', hv'⟩ := s1
              cases e'
              rw [hv] at hv'
              simpa using hv'.symm
            · rintro rfl; exact s1
          simp [this]
        · rw [s2 k (fun h => e h.symm)]
          simp [e, lookup]
  exact ⟨d, C79_round_trip pf sn d key.1 key.2.1 windows, key.2.2⟩

/-- **C79**: it succeeds exactly when the file is a JSON object (or nothing is to be changed in a JSON text). -/
theorem C79_rewrite_succeeds (pf : List Char → Option α) (sn : α → List Char) (updates : List (String × Json α)) (hne : updates ≠ [])
    (text : List Char) : (∃ out, rewriteText pf sn updates text = .ok out) ↔ ∃ l, jsonLoad pf text = .ok (.obj l) := by
  have hset : ∀ (us : List (String × Json α)) (l : List (String × Json α)), ∃ l',
      us.foldlM (fun d kv => Json.set d kv.1 kv.2) (.obj l) = .ok (.obj l') := by
    intro us
    induction us with
    | nil => intro l; exact ⟨l, rfl⟩
    | cons u us ih =>
      intro l
      have : ∃ l1, (Json.obj l).set u.1 u.2 = .ok (.obj l1) := by
        unfold Json.set; dsimp only; split
        · exact ⟨_, rfl⟩
        · exact ⟨_, rfl⟩
      obtain ⟨l1, h1⟩ := this
      obtain ⟨l2, h2⟩ := ih l1
      refine ⟨l2, ?_⟩
      rw [List.foldlM_cons, h1, ok_bind, h2]
  unfold rewriteText
  cases hj : jsonLoad pf text with
  | error e => simp [bind, Except.bind]
  | ok data =>
    rw [ok_bind]
    cases data with
    | obj l =>
      obtain ⟨l', h'⟩ := hset updates l
      rw [h', ok_bind]
      simp [pure_eq_ok]
    | _ =>
      obtain ⟨u, us, rfl⟩ := List.exists_cons_of_ne_nil hne
      rw [List.foldlM_cons]
      simp [Json.set, bind, Except.bind]

/-- **C79**: a number format for all integers that reads back, so the hypotheses on numbers can be met for every value. -/
theorem readable_int (n : ℤ) :
    Readable (fun t => some (intValue (t.take (t.length - 2)))) (fun n : ℤ => dumpInt n ++ ['.', '0']) n := by
  refine ⟨Or.inl ⟨dumpInt n, n, ['.', '0'], [], by simp, dumpInt_text n, Or.inr ⟨'0', [], rfl, by unfold IsDigit; decide, by simp⟩,
    Or.inl rfl, Or.inl (by simp)⟩, ?_⟩
  have := (scanInt_complete (r := []) (dumpInt_text n) (fun c hc => by simp at hc)).2
  simp [this]

mutual
theorem numsAll_of {P : α → Prop} (h : ∀ x, P x) : (j : Json α) → NumsAll P j
  | .num x => by rw [NumsAll]; exact h x
  | .arr l => by rw [NumsAll]; exact numsElements_of h l
  | .obj l => by rw [NumsAll]; exact numsMembers_of h l
  | .null => by simp [NumsAll]
  | .bool _ => by simp [NumsAll]
  | .int _ => by simp [NumsAll]
  | .str _ => by simp [NumsAll]
theorem numsElements_of {P : α → Prop} (h : ∀ x, P x) : (l : List (Json α)) → NumsElements P l
  | [] => by simp [NumsElements]
  | v :: vs => by rw [NumsElements]; exact ⟨numsAll_of h v, numsElements_of h vs⟩
theorem numsMembers_of {P : α → Prop} (h : ∀ x, P x) : (l : List (String × Json α)) → NumsMembers P l
  | [] => by simp [NumsMembers]
  | (k, v) :: vs => by rw [NumsMembers]; exact ⟨numsAll_of h v, numsMembers_of h vs⟩
end

/-- **C79**: with that format every value with distinct keys survives, whatever its names contain. -/
example (s : String) (x : ℤ) (windows : Bool) :
    let j : Json ℤ := .obj [("lava_name", .str s), ("slope", .arr [.num x, .int (-3), .null]), ("t", .obj [("on", .bool true)])]
    jsonLoad (fun t => some (intValue (t.take (t.length - 2))))
      (stored windows (jsonDump (fun n : ℤ => dumpInt n ++ ['.', '0']) j)) = .ok j :=
  C79_round_trip _ _ _ (by simp [DistinctKeys, DistinctMembers, DistinctElements]) (numsAll_of readable_int _) windows

/-- **C79**: a repeated key has its last value, at its first place. -/
example : dictOf [("a", Json.int (α := ℤ) 1), ("b", .null), ("a", .int 2)] = [("a", .int 2), ("b", .null)] := by
  simp [dictOf, upsert, lookup]

/-- **C79**: a leading zero, a trailing comma, a second value, single quotes and an unescaped control character are refused. -/
example : ([['0', '1'], ['[', '1', ',', ']'], ['{', '}', ' ', '1'], ['\'', '\''], ['"', '\n', '"']].map fun t =>
    (jsonLoad (α := ℤ) (fun _ => none) t).toOption.isSome) = [false, false, false, false, false] := by decide +kernel

end PyFlowGo
