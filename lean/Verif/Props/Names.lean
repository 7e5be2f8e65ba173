import Verif.Spec.Names
import Verif.Lemmas.Dict
/-!
# C21, C32, C37, C38: names of files, sheets, keys and postgres columns
-/
namespace Ticdat
open Spec

theorem lower_append (env : CaseEnv) (a b : List Char) : env.lower (a ++ b) = env.lower a ++ env.lower b := by
  simp [CaseEnv.lower]

theorem lower_cons (env : CaseEnv) (c : Char) (s : List Char) : env.lower (c :: s) = env.lo c ++ env.lower s := by
  simp [CaseEnv.lower]

theorem unblank_append (a b : List Char) : unblank (a ++ b) = unblank a ++ unblank b := by simp [unblank]

theorem unblank_of_no_blank (s : List Char) (h : ' ' ∉ s) : unblank s = s := by
  unfold unblank
  conv => rhs; rw [← List.map_id s]
  apply List.map_congr_left
  intro c hc
  have : c ≠ ' ' := fun e => h (e ▸ hc)
  simp [this]

theorem lower_no_blank {env : CaseEnv} (laws : CaseLaws env) (s : List Char) (h : ' ' ∉ s) : ' ' ∉ env.lower s := by
  unfold CaseEnv.lower
  rw [List.mem_flatMap]
  rintro ⟨c, hc, hb⟩
  exact h (laws.lo_no_blank c hb ▸ hc)

theorem norm_prettyGo {env : CaseEnv} (laws : CaseLaws env) (s : List Char) :
    ∀ b, CaseRoundTrip env s → unblank (env.lower (prettyGo env b s)) = unblank (env.lower s) := by
  induction s with
  | nil => intro b _; rfl
  | cons c cs ih =>
    intro b h
    have hcs : CaseRoundTrip env cs := fun d hd => h d (by simp [hd])
    simp only [prettyGo]
    split
    · rename_i e
      subst e
      rw [lower_cons, lower_cons, laws.lo_blank, laws.lo_under, unblank_append, unblank_append, ih true hcs]
      rfl
    · rw [lower_append, lower_cons, unblank_append, unblank_append, ih false hcs]
      congr 2
      split
      · exact h c (by simp)
      · simp [CaseEnv.lower]

theorem prettyGo_append (env : CaseEnv) (l cs : List Char) (h : '_' ∉ l) :
    prettyGo env false (l ++ cs) = l ++ prettyGo env false cs := by
  induction l with
  | nil => rfl
  | cons c rest ih =>
    simp only [List.mem_cons, not_or] at h
    simp only [List.cons_append, prettyGo]
    rw [if_neg (fun e => h.1 e.symm), ih h.2]
    simp

/-- The pretty name is matched like the name itself. -/
theorem norm_pretty {env : CaseEnv} (laws : CaseLaws env) (s : List Char) (h : CaseRoundTrip env s) :
    unblank (env.lower (pretty env s)) = unblank (env.lower s) := by
  cases s with
  | nil => rfl
  | cons c cs =>
    have hcs : CaseRoundTrip env cs := fun d hd => h d (by simp [hd])
    simp only [pretty]
    by_cases hu : '_' ∈ env.up c
    · have := laws.up_no_under c hu
      subst this
      rw [laws.up_under]
      exact norm_prettyGo laws _ false h
    · rw [prettyGo_append env _ _ hu, lower_append, lower_cons, unblank_append, unblank_append,
        norm_prettyGo laws cs false hcs]
      congr 2
      exact h c (by simp)

/-- A valid collection of table names. -/
theorem goodTableNames_iff (env : CaseEnv) (tables : List (List Char)) : goodTableNames env tables = true ↔
    (∀ t ∈ tables, t.head? ≠ some '_') ∧ (∀ t ∈ tables, ' ' ∉ t) ∧ (tables.map env.lower).Nodup := by
  simp [goodTableNames, List.all_eq_true, and_assoc]

theorem norm_tableNameOut {env : CaseEnv} (laws : CaseLaws env) (tables : List (List Char)) (cs : Bool) (t : List Char)
    (hb : ' ' ∉ t) (hr : CaseRoundTrip env t) : unblank (env.lower (tableNameOut env tables cs t)) = env.lower t := by
  unfold tableNameOut
  have := unblank_of_no_blank _ (lower_no_blank laws t hb)
  split
  · rw [norm_pretty laws t hr, this]
  · exact this

theorem inj_of_nodup_map {A B : Type} (f : A → B) {l : List A} (h : (l.map f).Nodup) {a b : A} (ha : a ∈ l) (hb : b ∈ l)
    (e : f a = f b) : a = b := by
  induction l with
  | nil => simp at ha
  | cons x xs ih =>
    rw [List.map_cons, List.nodup_cons] at h
    rcases List.mem_cons.mp ha with h1 | h1 <;> rcases List.mem_cons.mp hb with h2 | h2
    · rw [h1, h2]
    · exact absurd (List.mem_map.mpr ⟨b, h2, by rw [← e, h1]⟩) h.1
    · exact absurd (List.mem_map.mpr ⟨a, h1, by rw [e, h2]⟩) h.1
    · exact ih h.2 h1 h2

theorem lower_inj_of_nodup {env : CaseEnv} {tables : List (List Char)} (h : (tables.map env.lower).Nodup)
    {a b : List Char} (ha : a ∈ tables) (hb : b ∈ tables) (e : env.lower a = env.lower b) : a = b :=
  inj_of_nodup_map _ h ha hb e

theorem nodup_of_map {A B : Type} (f : A → B) {l : List A} (h : (l.map f).Nodup) : l.Nodup := by
  rw [List.Nodup, List.pairwise_map] at h
  exact List.Pairwise.imp (fun hne e => hne (by rw [e])) h

/-- Picking the one match out of the names written for the tables. -/
theorem filter_written {A B : Type} [DecidableEq A] (l : List A) (hn : l.Nodup) (nm : A → B) (p : B → Bool) (t : A) (ht : t ∈ l)
    (hp : ∀ x ∈ l, p (nm x) = true ↔ x = t) (others : List B) (ho : ∀ o ∈ others, p o = false) :
    (l.map nm ++ others).filter p = [nm t] := by
  rw [List.filter_append]
  have h2 : others.filter p = [] := by
    rw [List.filter_eq_nil_iff]
    intro o hoo
    simp [ho o hoo]
  rw [h2, List.append_nil]
  clear h2 ho
  induction l with
  | nil => simp at ht
  | cons x xs ih =>
    rw [List.nodup_cons] at hn
    rcases List.mem_cons.mp ht with rfl | ht
    · rw [List.map_cons, List.filter_cons_of_pos ((hp t (by simp)).mpr rfl)]
      have : (xs.map nm).filter p = [] := by
        rw [List.filter_eq_nil_iff]
        intro b hb
        obtain ⟨y, hy, rfl⟩ := List.mem_map.mp hb
        intro hpy
        exact hn.1 ((hp y (by simp [hy])).mp hpy ▸ hy)
      rw [this]
    · have hx : x ≠ t := fun e => hn.1 (e ▸ ht)
      rw [List.map_cons, List.filter_cons_of_neg (fun h => hx ((hp x (by simp)).mp h))]
      exact ih hn.2 ht (fun y hy => hp y (by simp [hy]))

theorem csvMatches_out {env : CaseEnv} (laws : CaseLaws env) {tables : List (List Char)}
    (hg : goodTableNames env tables = true) (cs : Bool) {t : List Char} (ht : t ∈ tables) (hr : CaseRoundTrip env t)
    {t' : List Char} (ht' : t' ∈ tables) :
    csvMatches env t' (tableNameOut env tables cs t ++ ".csv".toList) = true ↔ t' = t := by
  obtain ⟨_, hb, hn⟩ := (goodTableNames_iff env tables).mp hg
  unfold csvMatches
  rw [decide_eq_true_eq, lower_append, laws.lo_csv, unblank_append, norm_tableNameOut laws tables cs t (hb t ht) hr]
  have : unblank ".csv".toList = ".csv".toList := by decide
  rw [this, List.append_cancel_right_eq]
  constructor
  · intro e; exact (lower_inj_of_nodup hn ht ht' e).symm
  · rintro rfl; rfl

/-- **C21, csv.**  Write the tables of a valid schema under their names or (if the code decides so) their pretty names into
a directory, which may also have files that match no table.  Then the file found for each table is the one written for
it. -/
theorem csv_file_found_partial {env : CaseEnv} (laws : CaseLaws env) {tables : List (List Char)}
    (hg : goodTableNames env tables = true) (hr : ∀ t ∈ tables, CaseRoundTrip env t) (cs : Bool)
    (others : List (List Char)) (ho : ∀ o ∈ others, ∀ t ∈ tables, csvMatches env t o = false) (t : List Char)
    (ht : t ∈ tables) :
    csvFilePath env (tables.map (fun t => tableNameOut env tables cs t ++ ".csv".toList) ++ others) t =
      some (some (tableNameOut env tables cs t ++ ".csv".toList)) := by
  obtain ⟨_, _, hn⟩ := (goodTableNames_iff env tables).mp hg
  unfold csvFilePath
  rw [filter_written tables (nodup_of_map _ hn) (fun t => tableNameOut env tables cs t ++ ".csv".toList)
    (csvMatches env t) t ht (fun x hx => ?_) others (fun o hoo => ho o hoo t ht)]
  rw [csvMatches_out laws hg cs hx (hr x hx) ht]
  exact eq_comm

/-- **C21, json.**  The key written for a table is matched to that table and to no other. -/
theorem json_key_matches_partial {env : CaseEnv} (laws : CaseLaws env) {tables : List (List Char)}
    (hg : goodTableNames env tables = true) (cs : Bool) {t : List Char} (ht : t ∈ tables) (hr : CaseRoundTrip env t)
    {t' : List Char} (ht' : t' ∈ tables) : jsonMatches env t' (tableNameOut env tables cs t) = true ↔ t' = t := by
  obtain ⟨_, hb, hn⟩ := (goodTableNames_iff env tables).mp hg
  have hcomm : ∀ s : List Char, env.lower (unblank s) = unblank (env.lower s) := by
    intro s
    induction s with
    | nil => rfl
    | cons c s ih =>
      have hc : env.lo (if c = ' ' then '_' else c) = unblank (env.lo c) := by
        split
        · rename_i e; subst e; rw [laws.lo_blank, laws.lo_under]; rfl
        · rename_i e
          rw [unblank_of_no_blank]
          exact fun h => e (laws.lo_no_blank c h)
      rw [lower_cons, unblank_append, ← ih, ← hc]
      simp [unblank, CaseEnv.lower]
  unfold jsonMatches
  rw [decide_eq_true_eq, hcomm, norm_tableNameOut laws tables cs t (hb t ht) hr]
  constructor
  · intro e; exact lower_inj_of_nodup hn ht' ht e
  · rintro rfl; rfl

theorem lower_eq_map {env : CaseEnv} (hs : SimpleCase env) : ∃ g : Char → Char, ∀ s, env.lower s = s.map g := by
  refine ⟨fun c => Classical.choose (hs c), fun s => ?_⟩
  induction s with
  | nil => rfl
  | cons c s ih =>
    rw [lower_cons, ih, Classical.choose_spec (hs c)]
    simp

theorem unblank_take (s : List Char) (n : Nat) : unblank (s.take n) = (unblank s).take n := by
  simp [unblank, List.map_take]

theorem sheetMatches_out {env : CaseEnv} (laws : CaseLaws env) (hs : SimpleCase env) {tables : List (List Char)}
    (hg : goodTableNames env tables = true) (hlow : (tables.map (fun t => (env.lower t).take longestSheet)).Nodup)
    (cs : Bool) {t : List Char} (ht : t ∈ tables) (hr : CaseRoundTrip env t) {t' : List Char} (ht' : t' ∈ tables) :
    sheetMatches env t' (sheetNameOut env tables cs t) = true ↔ t' = t := by
  obtain ⟨_, hb, _⟩ := (goodTableNames_iff env tables).mp hg
  obtain ⟨g, hgm⟩ := lower_eq_map hs
  have key : (unblank (env.lower (sheetNameOut env tables cs t))).take longestSheet =
      (env.lower t).take longestSheet := by
    unfold sheetNameOut
    have : env.lower ((tableNameOut env tables cs t).take longestSheet) =
        (env.lower (tableNameOut env tables cs t)).take longestSheet := by
      rw [hgm, hgm, List.map_take]
    rw [this, unblank_take, norm_tableNameOut laws tables cs t (hb t ht) hr, List.take_take, Nat.min_self]
  unfold sheetMatches
  rw [decide_eq_true_eq, key]
  constructor
  · intro e
    exact inj_of_nodup_map _ hlow ht' ht e
  · rintro rfl; rfl

/-- **C37 and C21 for Excel (partial).**  If the table names differ in their first 30 characters *up to case*, then in a
book with the sheets written for the tables (and others that match no table) each table finds exactly its sheet.
Missing: the code's check compares the truncated names case-sensitively (`sheet_check_misses_case`). -/
theorem sheet_found_partial {env : CaseEnv} (laws : CaseLaws env) (hs : SimpleCase env) {tables : List (List Char)}
    (hg : goodTableNames env tables = true) (hlow : (tables.map (fun t => (env.lower t).take longestSheet)).Nodup)
    (hr : ∀ t ∈ tables, CaseRoundTrip env t) (cs : Bool) (others : List (List Char))
    (ho : ∀ o ∈ others, ∀ t ∈ tables, sheetMatches env t o = false) (t : List Char) (ht : t ∈ tables) :
    sheetOf env (tables.map (sheetNameOut env tables cs) ++ others) t = some (some (sheetNameOut env tables cs t)) := by
  unfold sheetOf
  rw [filter_written tables (nodup_of_map _ hlow) (sheetNameOut env tables cs) (sheetMatches env t) t ht (fun x hx => ?_)
    others (fun o hoo => ho o hoo t ht)]
  rw [sheetMatches_out laws hs hg hlow cs hx (hr x hx) ht]
  exact eq_comm

theorem matches_written {env : CaseEnv} (laws : CaseLaws env) (hs : SimpleCase env) {tables : List (List Char)}
    (hg : goodTableNames env tables = true) (cs : Bool) {x : List Char} (hx : x ∈ tables) (hr : CaseRoundTrip env x)
    (t : List Char) :
    sheetMatches env t (sheetNameOut env tables cs x) = true ↔
      (env.lower t).take longestSheet = (env.lower x).take longestSheet := by
  obtain ⟨_, hb, _⟩ := (goodTableNames_iff env tables).mp hg
  obtain ⟨g, hgm⟩ := lower_eq_map hs
  have key : (unblank (env.lower (sheetNameOut env tables cs x))).take longestSheet =
      (env.lower x).take longestSheet := by
    unfold sheetNameOut
    have : env.lower ((tableNameOut env tables cs x).take longestSheet) =
        (env.lower (tableNameOut env tables cs x)).take longestSheet := by
      rw [hgm, hgm, List.map_take]
    rw [this, unblank_take, norm_tableNameOut laws tables cs x (hb x hx) hr, List.take_take, Nat.min_self]
  unfold sheetMatches
  rw [decide_eq_true_eq, key]

/-- **C37, exactly when it holds.**  Some sheet is matched to two tables of the schema exactly if the names of two tables agree,
up to case, in their first 30 characters. -/
theorem sheet_clash_iff {env : CaseEnv} (laws : CaseLaws env) {tables : List (List Char)}
    (hg : goodTableNames env tables = true) :
    (∃ sheet, ∃ t ∈ tables, ∃ t' ∈ tables, t ≠ t' ∧ sheetMatches env t sheet = true ∧ sheetMatches env t' sheet = true) ↔
      ∃ t ∈ tables, ∃ t' ∈ tables, t ≠ t' ∧ (env.lower t).take 30 = (env.lower t').take 30 := by
  obtain ⟨_, hb, _⟩ := (goodTableNames_iff env tables).mp hg
  simp only [sheetMatches, decide_eq_true_eq, longestSheet]
  constructor
  · rintro ⟨sheet, t, ht, t', ht', hne, h, h'⟩
    exact ⟨t, ht, t', ht', hne, (of_decide_eq_true h).trans (of_decide_eq_true h').symm⟩
  · rintro ⟨t, ht, t', ht', hne, h⟩
    have := unblank_of_no_blank _ (lower_no_blank laws t' (hb t' ht'))
    exact ⟨t', t, ht, t', ht', hne, by rw [this]; exact decide_eq_true h,
      by rw [this]; exact decide_eq_true rfl⟩

theorem two_matches {A : Type} (p : A → Bool) {a b : A} (hne : a ≠ b) (ha : p a = true) (hb : p b = true) :
    ∀ {l : List A}, a ∈ l → b ∈ l → ∃ x y r, l.filter p = x :: y :: r := by
  intro l hla hlb
  have h1 : a ∈ l.filter p := List.mem_filter.2 ⟨hla, ha⟩
  have h2 : b ∈ l.filter p := List.mem_filter.2 ⟨hlb, hb⟩
  match hl : l.filter p with
  | [] => rw [hl] at h1; cases h1
  | [x] =>
    rw [hl] at h1 h2
    exact absurd ((List.mem_singleton.1 h1).trans (List.mem_singleton.1 h2).symm) hne
  | x :: y :: r => exact ⟨x, y, r, rfl⟩

/-- **C37, what happens otherwise.**  If the names of two tables agree, up to case, in their first 30 characters, then reading
either of them from a book with the sheets that `write_file` made raises, unless these sheets have the same name: nothing is read
from a wrong sheet. -/
theorem sheet_clash_raises {env : CaseEnv} (laws : CaseLaws env) (hs : SimpleCase env) {tables : List (List Char)}
    (hg : goodTableNames env tables = true) (cs : Bool) (others : List (List Char)) {t t' : List Char} (ht : t ∈ tables)
    (ht' : t' ∈ tables) (hr : CaseRoundTrip env t) (hr' : CaseRoundTrip env t')
    (hne : sheetNameOut env tables cs t ≠ sheetNameOut env tables cs t')
    (h : (env.lower t).take 30 = (env.lower t').take 30) :
    sheetOf env (tables.map (sheetNameOut env tables cs) ++ others) t = none := by
  obtain ⟨x, y, r, hxy⟩ := two_matches (sheetMatches env t) hne
    ((matches_written laws hs hg cs ht hr t).2 rfl) ((matches_written laws hs hg cs ht' hr' t).2 h)
    (List.mem_append_left others (List.mem_map.2 ⟨t, ht, rfl⟩)) (List.mem_append_left others (List.mem_map.2 ⟨t', ht', rfl⟩))
  unfold sheetOf
  rw [hxy]

/-- **C37 (partial).**  For lower case table names the code's check is enough: if it passes, no sheet matches two
tables. -/
theorem sheet_check_lower_partial {env : CaseEnv} {tables : List (List Char)} (hlow : ∀ t ∈ tables, env.lower t = t)
    (hc : sheetNamesDiffer tables = true) (sheet t t' : List Char) (ht : t ∈ tables) (ht' : t' ∈ tables)
    (hm : sheetMatches env t sheet = true) (hm' : sheetMatches env t' sheet = true) : t = t' := by
  simp only [sheetNamesDiffer, decide_eq_true_eq] at hc
  simp only [sheetMatches, decide_eq_true_eq] at hm hm'
  rw [hlow t ht] at hm
  rw [hlow t' ht'] at hm'
  have e : t.take longestSheet = t'.take longestSheet := by rw [hm, hm']
  exact inj_of_nodup_map _ hc ht ht' e

/-- **C38 (partial).**  Without permission to overwrite, and without pretty names, a write either raises before it opens a
file, or opens only files that did not exist; it raises exactly if one of them exists.
Missing: with pretty names the check looks at other names than are written (`pretty_write_overwrites`). -/
theorem csv_no_overwrite_partial (env : CaseEnv) (existing tables : List (List Char)) :
    (csvWriteFiles env existing tables false false = none ↔ ∃ t ∈ tables, t ++ ".csv".toList ∈ existing) ∧
    ∀ files, csvWriteFiles env existing tables false false = some files →
      files = tables.map (· ++ ".csv".toList) ∧ ∀ f ∈ files, f ∉ existing := by
  have hname : ∀ t, tableNameOut env tables false t = t := fun t => by simp [tableNameOut]
  unfold csvWriteFiles
  simp only [Bool.not_false, Bool.true_and, List.any_eq_true, List.contains_iff_mem, hname]
  split
  · rename_i h
    refine ⟨iff_of_true rfl h, fun files hf => by cases hf⟩
  · rename_i h
    refine ⟨iff_of_false (by simp) h, fun files hf => ?_⟩
    cases hf
    refine ⟨rfl, fun f hf hex => ?_⟩
    obtain ⟨t, ht, rfl⟩ := List.mem_map.mp hf
    exact h ⟨t, ht, hex⟩

/-- **C38, what pretty names do:** the check looks at the plain names, the write opens the pretty ones. -/
theorem csv_overwrite_iff (env : CaseEnv) (existing tables : List (List Char)) (files : List (List Char))
    (h : csvWriteFiles env existing tables false true = some files) (hd : prettyDistinct env tables = true) :
    files = tables.map (fun t => pretty env t ++ ".csv".toList) ∧ ∀ t ∈ tables, t ++ ".csv".toList ∉ existing := by
  unfold csvWriteFiles at h
  split at h
  · cases h
  · rename_i hc
    cases h
    refine ⟨by simp [tableNameOut, hd], fun t ht hex => hc ?_⟩
    simp only [Bool.not_false, Bool.true_and, List.any_eq_true, List.contains_iff_mem]
    exact ⟨t, ht, hex⟩

/-! ### Postgres names -/

/-- **C32, legal.**  Every character of a postgres name is a lower case alphanumeric character or an underscore, and the
name does not start with a digit. -/
theorem pgName_legal {env : CaseEnv} (laws : CaseLaws env) (n : List Char) :
    (∀ c ∈ pgName env n, (env.alnum c = true ∧ env.lo c = [c]) ∨ c = '_') ∧
      ∀ c, (pgName env n).head? = some c → env.digit c = false := by
  have hmap : ∀ c ∈ (env.lower n).map (fun c => if env.alnum c then c else '_'),
      (env.alnum c = true ∧ env.lo c = [c]) ∨ c = '_' := by
    intro c hc
    obtain ⟨d, hd, rfl⟩ := List.mem_map.mp hc
    by_cases ha : env.alnum d = true
    · simp only [ha, if_true]
      obtain ⟨e, _, he⟩ := List.mem_flatMap.mp hd
      exact .inl ⟨trivial, laws.lo_idem e d he⟩
    · simp [ha]
  unfold pgName
  cases h : (env.lower n).map (fun c => if env.alnum c then c else '_') with
  | nil => simp
  | cons c cs =>
    rw [h] at hmap
    constructor
    · intro d hd
      rcases List.mem_cons.mp hd with rfl | hd
      · split
        · exact .inr rfl
        · exact hmap c (by simp)
      · exact hmap d (by simp [hd])
    · intro d hd
      simp only [List.head?_cons, Option.some.injEq] at hd
      subst hd
      by_cases hdig : env.digit c = true
      · simp [hdig, laws.under_digit]
      · simpa [hdig] using hdig

theorem pgName_of_legal {env : CaseEnv} (laws : CaseLaws env) (n : List Char)
    (h1 : ∀ c ∈ n, (env.alnum c = true ∧ env.lo c = [c]) ∨ c = '_')
    (h2 : ∀ c, n.head? = some c → env.digit c = false) : pgName env n = n := by
  have hlow : env.lower n = n := by
    clear h2
    induction n with
    | nil => rfl
    | cons c cs ih =>
      rw [lower_cons, ih (fun d hd => h1 d (by simp [hd]))]
      rcases h1 c (by simp) with ⟨_, h⟩ | rfl
      · rw [h]; rfl
      · rw [laws.lo_under]; rfl
  have hmap : n.map (fun c => if env.alnum c then c else '_') = n := by
    conv => rhs; rw [← List.map_id n]
    apply List.map_congr_left
    intro c hc
    rcases h1 c hc with ⟨h, _⟩ | rfl
    · simp [h]
    · simp
  unfold pgName
  rw [hlow, hmap]
  cases n with
  | nil => rfl
  | cons c cs => simp [h2 c rfl]

/-- **C32, stable.** -/
theorem pgName_idempotent {env : CaseEnv} (laws : CaseLaws env) (n : List Char) :
    pgName env (pgName env n) = pgName env n := by
  obtain ⟨h1, h2⟩ := pgName_legal laws n
  exact pgName_of_legal laws _ h1 h2

/-- **C32, which names are unchanged.** -/
theorem pgName_fixed_iff {env : CaseEnv} (laws : CaseLaws env) (n : List Char) : pgName env n = n ↔
    (∀ c ∈ n, (env.alnum c = true ∧ env.lo c = [c]) ∨ c = '_') ∧ ∀ c, n.head? = some c → env.digit c = false := by
  constructor
  · intro h
    have := pgName_legal laws n
    rw [h] at this
    exact this
  · rintro ⟨h1, h2⟩
    exact pgName_of_legal laws n h1 h2

/-- The compatibility check passes only if the columns have distinct names. -/
theorem pgCompatible_columns_distinct_partial {env : CaseEnv} {reserved : List (List Char)} {table : List Char}
    {fields : List (List Char)} (h : pgCompatible env reserved table fields = true) :
    pgName env table = table ∧ (fields.map (pgName env)).Nodup := by
  simp only [pgCompatible, Bool.and_eq_true, decide_eq_true_eq] at h
  exact h.1

/-! ### The ASCII character tables, counterexamples and non-vacuity -/

/-- Lower case of an ASCII letter. -/
def asciiLow (c : Char) : Char := if 65 ≤ c.toNat ∧ c.toNat ≤ 90 then Char.ofNat (c.toNat + 32) else c

/-- Upper case of an ASCII letter. -/
def asciiUp (c : Char) : Char := if 97 ≤ c.toNat ∧ c.toNat ≤ 122 then Char.ofNat (c.toNat - 32) else c

/-- The ASCII part of Python's tables. -/
def asciiEnv : CaseEnv where
  lo c := [asciiLow c]
  up c := [asciiUp c]
  alnum c := decide (48 ≤ c.toNat ∧ c.toNat ≤ 57) || decide (65 ≤ c.toNat ∧ c.toNat ≤ 90) ||
    decide (97 ≤ c.toNat ∧ c.toNat ≤ 122)
  digit c := decide (48 ≤ c.toNat ∧ c.toNat ≤ 57)

/-- The same with the German sharp s, whose upper case is `SS`. -/
def sharpEnv : CaseEnv :=
  { asciiEnv with up := fun c => if c.toNat = 223 then ['S', 'S'] else [asciiUp c] }

theorem toNat_ofNat_small (n : Nat) (h : n < 200) : (Char.ofNat n).toNat = n := by
  have hv : n.isValidChar := Or.inl (by omega)
  simp [Char.ofNat, hv, Char.toNat, Char.ofNatAux]

theorem asciiLow_toNat (c : Char) :
    (asciiLow c).toNat = if 65 ≤ c.toNat ∧ c.toNat ≤ 90 then c.toNat + 32 else c.toNat := by
  unfold asciiLow
  split
  · rename_i h; rw [toNat_ofNat_small _ (by omega)]
  · rfl

theorem asciiUp_toNat (c : Char) :
    (asciiUp c).toNat = if 97 ≤ c.toNat ∧ c.toNat ≤ 122 then c.toNat - 32 else c.toNat := by
  unfold asciiUp
  split
  · rename_i h; rw [toNat_ofNat_small _ (by omega)]
  · rfl

theorem char_eq_of_toNat {a b : Char} (h : a.toNat = b.toNat) : a = b := by
  apply Char.ext
  apply UInt32.toNat.inj
  exact h

theorem asciiLaws : CaseLaws asciiEnv where
  lo_blank := by decide
  lo_under := by decide
  up_under := by decide
  lo_no_blank := by
    intro c h
    simp only [asciiEnv, List.mem_singleton] at h
    have h' : (asciiLow c).toNat = 32 := by rw [← h]; rfl
    rw [asciiLow_toNat] at h'
    apply char_eq_of_toNat
    show c.toNat = 32
    split at h' <;> omega
  up_no_under := by
    intro c h
    simp only [asciiEnv, List.mem_singleton] at h
    have h' : (asciiUp c).toNat = 95 := by rw [← h]; rfl
    rw [asciiUp_toNat] at h'
    apply char_eq_of_toNat
    show c.toNat = 95
    split at h' <;> omega
  lo_csv := by decide
  lo_idem := by
    intro c d hd
    simp only [asciiEnv, List.mem_singleton] at hd ⊢
    subst hd
    congr 1
    apply char_eq_of_toNat
    rw [asciiLow_toNat (asciiLow c), asciiLow_toNat c]
    repeat' split
    all_goals omega
  digit_alnum := by
    intro c h
    simp only [asciiEnv] at h ⊢
    simp [h]
  under_digit := by decide

theorem asciiSimple : SimpleCase asciiEnv := fun c => ⟨asciiLow c, rfl⟩

theorem asciiRoundTrip (s : List Char) : CaseRoundTrip asciiEnv s := by
  intro c _
  simp only [asciiEnv, List.flatMap_cons, List.flatMap_nil, List.append_nil]
  congr 1
  apply char_eq_of_toNat
  rw [asciiLow_toNat, asciiLow_toNat, asciiUp_toNat]
  repeat' split
  all_goals omega

/-- **C21 fails for some names outside ASCII:** the pretty file name of a table with a sharp s is not matched to the
table. -/
theorem pretty_name_not_matched :
    goodTableNames sharpEnv [[Char.ofNat 223, 'x']] = true ∧
      csvMatches sharpEnv [Char.ofNat 223, 'x'] (pretty sharpEnv [Char.ofNat 223, 'x'] ++ ".csv".toList) = false := by
  decide +kernel

/-- **C37 fails:** two table names that differ only in case in their first 30 characters pass the check, yet both match
both sheets, so reading back what was written raises. -/
theorem sheet_check_misses_case :
    let a := "aaaaaaaaaaaaaaaaaaaaaaaaaaaaaaaaX".toList
    let b := "AaaaaaaaaaaaaaaaaaaaaaaaaaaaaaaaY".toList
    goodTableNames asciiEnv [a, b] = true ∧ sheetNamesDiffer [a, b] = true ∧
      sheetOf asciiEnv ([a, b].map (sheetNameOut asciiEnv [a, b] false)) a = none := by
  decide +kernel

example : ∃ sheet, ∃ t ∈ ["aaaaaaaaaaaaaaaaaaaaaaaaaaaaaaaaX".toList, "AaaaaaaaaaaaaaaaaaaaaaaaaaaaaaaaY".toList],
    ∃ t' ∈ ["aaaaaaaaaaaaaaaaaaaaaaaaaaaaaaaaX".toList, "AaaaaaaaaaaaaaaaaaaaaaaaaaaaaaaaY".toList],
      t ≠ t' ∧ sheetMatches asciiEnv t sheet = true ∧ sheetMatches asciiEnv t' sheet = true :=
  (sheet_clash_iff asciiLaws (by decide +kernel)).2 ⟨_, List.mem_cons_self, _, List.mem_cons_of_mem _ List.mem_cons_self,
    by decide, by decide +kernel⟩

/-- **C38 fails with pretty names:** the file `My Table.csv` exists and is opened for writing although overwriting is not
allowed. -/
theorem pretty_write_overwrites :
    csvWriteFiles asciiEnv ["My Table.csv".toList] ["my_table".toList] false true = some ["My Table.csv".toList] := by
  decide +kernel

/-- The reserved word check looks at the field name, not at the postgres name: a field `current date` passes, and its
column is called `current_date`, which is reserved. -/
theorem reserved_word_missed :
    pgCompatible asciiEnv ["current_date".toList] "t".toList ["current date".toList] = true ∧
      pgName asciiEnv "current date".toList = "current_date".toList := by
  decide +kernel

example : goodTableNames asciiEnv ["my_table".toList, "Other".toList] = true ∧
    csvFilePath asciiEnv ["Other.csv".toList, "My Table.csv".toList, "notes.txt".toList] "my_table".toList =
      some (some "My Table.csv".toList) ∧ pretty asciiEnv "my_table".toList = "My Table".toList := by decide +kernel

example : pgName asciiEnv "2nd Price (EUR)".toList = "_nd_price__eur_".toList := by decide +kernel

example : (["long_table_name_number_one".toList, "Other".toList].map
    (fun t => (asciiEnv.lower t).take longestSheet)).Nodup ∧ sheetNamesDiffer ["ab".toList, "ac".toList] = true := by
  decide +kernel

end Ticdat
