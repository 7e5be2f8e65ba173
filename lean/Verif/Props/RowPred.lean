import Verif.Lemmas.RowPred
import Verif.Props.DataType
/-!
# C15: row predicates
-/
set_option linter.unusedSimpArgs false
set_option linter.unusedSectionVars false
namespace Ticdat
open Spec
variable {V K D : Type}

theorem memoInv_nil (handled : Bool) (env : PredEnv K D) (preds : List ((String × PName) × RowPred V K)) :
    MemoInv handled env preds [] := by
  intro m kw h; simp at h

/-- All failures in the order of discovery. -/
def rowEvents {PK : Type} (handled : Bool) (env : PredEnv K D) (rowsOf : String → List (PK × Rec V))
    (preds : List ((String × PName) × RowPred V K)) : List ((String × PName) × RowFail PK) :=
  (rowChecks handled env rowsOf preds []).filterMap Option.join

theorem rowChecks_spec {PK : Type} {handled : Bool} {env : PredEnv K D} {rowsOf : String → List (PK × Rec V)}
    {preds : List ((String × PName) × RowPred V K)} (hag : MakersAgree env preds)
    (h : handled = true ∨ NoRaise env rowsOf preds) :
    (∀ c ∈ rowChecks handled env rowsOf preds [], c ≠ none) ∧
    ∀ key x, (key, x) ∈ rowEvents handled env rowsOf preds ↔
      ∃ p, (key, p) ∈ preds ∧ Entry env (rowsOf key.1) key p x := by
  unfold rowEvents
  rw [rowChecks_pure hag rowsOf preds (fun _ h => h) [] (memoInv_nil _ _ _)]
  have hp : ∀ p ∈ preds, (handled = true ∨ ((∀ e, ownArgs env p.1 p.2 ≠ .raises e) ∧
      ∀ kw, ownArgs env p.1 p.2 = .args kw → ∀ q ∈ rowsOf p.1.1, ∀ e, p.2.run kw q.2 ≠ .raised e)) := by
    intro p hp
    rcases h with h | h
    · exact Or.inl h
    · exact Or.inr (h p.1 p.2 hp)
  refine ⟨?_, ?_⟩
  · intro c hc
    obtain ⟨p, hpm, hc⟩ := List.mem_flatMap.1 hc
    exact (pureChecks_spec handled env rowsOf p (hp p hpm)).1 c hc
  · intro key x
    simp only [List.mem_filterMap, List.mem_flatMap]
    constructor
    · rintro ⟨c, ⟨p, hpm, hc⟩, hj⟩
      have : c = some (some (key, x)) := by
        match c, hj with
        | some (some y), hj => simp [Option.join] at hj; rw [hj]
      subst this
      obtain ⟨x', e, hE⟩ := ((pureChecks_spec handled env rowsOf p (hp p hpm)).2 _).1 hc
      cases e
      exact ⟨p.2, hpm, hE⟩
    · rintro ⟨p, hpm, hE⟩
      exact ⟨some (some (key, x)), ⟨(key, p), hpm,
        ((pureChecks_spec handled env rowsOf (key, p) (hp _ hpm)).2 _).2 ⟨x, rfl, hE⟩⟩, rfl⟩

theorem rowCheck_fst {PK : Type} {handled : Bool} {key : String × PName} {p : RowPred V K} {kw : Option K} {pk : PK}
    {r : Rec V} {y} (h : rowCheck handled key p kw pk r = some (some y)) : ∃ err, y = (key, .row pk err) := by
  unfold rowCheck at h
  split at h
  · simp at h
  · split at h
    · split at h
      · simp at h
      · simp at h; exact ⟨_, h.symm⟩
    · split at h
      · simp at h
      · simp at h; exact ⟨_, h.symm⟩

/-- No failure is recorded twice. -/
theorem rowEvents_nodup {PK : Type} {handled : Bool} {env : PredEnv K D} {rowsOf : String → List (PK × Rec V)}
    {preds : List ((String × PName) × RowPred V K)} (hag : MakersAgree env preds)
    (hnd : (preds.map Prod.fst).Nodup) (hrows : ∀ p ∈ preds, ((rowsOf p.1.1).map Prod.fst).Nodup) :
    (rowEvents handled env rowsOf preds).Nodup := by
  unfold rowEvents
  rw [rowChecks_pure hag rowsOf preds (fun _ h => h) [] (memoInv_nil _ _ _)]
  have hkey : ∀ p : (String × PName) × RowPred V K, ∀ y, some (some y) ∈ pureChecks handled env rowsOf p → y.1 = p.1 := by
    intro p y hy
    unfold pureChecks at hy
    split at hy
    · simp at hy
    · rename_i kw _
      unfold predChecks at hy
      split at hy
      · obtain ⟨q, _, hq⟩ := List.mem_map.1 hy
        obtain ⟨err, rfl⟩ := rowCheck_fst hq; rfl
      · obtain ⟨q, _, hq⟩ := List.mem_map.1 hy
        obtain ⟨err, rfl⟩ := rowCheck_fst hq; rfl
      · simp at hy; rw [hy]
  have hone : ∀ p ∈ preds, ((pureChecks handled env rowsOf p).filterMap Option.join).Nodup := by
    intro p hp
    have hmap : ∀ kw, (((rowsOf p.1.1).map (fun r => rowCheck handled p.1 p.2 kw r.1 r.2)).filterMap Option.join).Nodup := by
      intro kw
      rw [List.filterMap_map]
      have := nodup_filterMap_key (rowsOf p.1.1) (Option.join ∘ (fun r => rowCheck handled p.1 p.2 kw r.1 r.2))
        (fun r => some r.1) (fun y => match y.2 with
          | RowFail.row pk _ => some pk
          | .star _ => none) (by
          intro a _ b hb
          simp only [Function.comp] at hb
          cases hc : rowCheck handled p.1 p.2 kw a.1 a.2 with
          | none => rw [hc] at hb; simp at hb
          | some z =>
            cases z with
            | none => rw [hc] at hb; simp at hb
            | some y =>
              rw [hc] at hb; simp at hb; subst hb
              obtain ⟨err, rfl⟩ := rowCheck_fst hc
              rfl) (by
          have := hrows p hp
          have h2 : ((rowsOf p.1.1).map (fun r => some r.1)) = ((rowsOf p.1.1).map Prod.fst).map some := by simp
          rw [h2, List.Nodup, List.pairwise_map]
          exact this.imp (fun h e => h (Option.some.inj e)))
      rw [List.Nodup, List.pairwise_map] at this
      exact this.imp (fun h e => h (by rw [e]))
    unfold pureChecks
    split
    · simp
    · unfold predChecks
      split
      · exact hmap _
      · exact hmap _
      · simp
  rw [List.filterMap_flatMap, List.Nodup, List.pairwise_flatMap]
  refine ⟨hone, ?_⟩
  rw [List.Nodup, List.pairwise_map] at hnd
  apply hnd.imp
  intro a b hab x hx y hy e
  subst e
  obtain ⟨c, hc, hj⟩ := List.mem_filterMap.1 hx
  obtain ⟨c', hc', hj'⟩ := List.mem_filterMap.1 hy
  have e1 : c = some (some x) := by
    match c, hj with
    | some (some y), hj => simp [Option.join] at hj; rw [hj]
  have e2 : c' = some (some x) := by
    match c', hj' with
    | some (some y), hj => simp [Option.join] at hj; rw [hj]
  subst e1 e2
  exact hab ((hkey a x hc).symm.trans (hkey b x hc'))

/-- A scan without a limit that meets a test that raises, raises. -/
theorem scanChecks_raises {E : Type} (cs : List (Option (Option E))) (h : none ∈ cs) (acc : List E) :
    scanChecks none cs acc = none := by
  induction cs generalizing acc with
  | nil => simp at h
  | cons c cs ih =>
    match c, h with
    | none, _ => rfl
    | some none, h => rw [scanChecks]; exact ih (by simpa using h) _
    | some (some e), h =>
      rw [scanChecks]
      simp only [tripsEnd, Bool.false_eq_true, if_false]
      exact ih (by simpa using h) _

/-- The standing assumptions on a schema, a data object and the row predicates of a factory: predicate names are unique
per table and the tables exist (ticdatfactory.py:302). -/
structure PredsOK (s : Schema) (preds : List ((String × PName) × RowPred V K)) : Prop where
  nodup : (preds.map Prod.fst).Nodup
  tables : ∀ p ∈ preds, p.1.1 ∈ PyDict.keys s

theorem rowChecks_congr {PK : Type} {handled : Bool} {env : PredEnv K D} {f g : String → List (PK × Rec V)}
    {preds : List ((String × PName) × RowPred V K)} (h : ∀ p ∈ preds, f p.1.1 = g p.1.1) (memo : Memo K) :
    rowChecks handled env f preds memo = rowChecks handled env g preds memo := by
  induction preds generalizing memo with
  | nil => rfl
  | cons p ps ih =>
    have ih' := fun memo => ih (fun q hq => h q (List.mem_cons_of_mem _ hq)) memo
    rw [rowChecks, rowChecks]
    cases kwargsStep handled env memo p with
    | none => simp [ih']
    | some q =>
      obtain ⟨kw, memo'⟩ := q
      simp only [ih' memo']
      congr 1
      unfold predChecks
      rw [h p List.mem_cons_self]

theorem rowChecks_rows [DecidableEq V] {handled : Bool} {env : PredEnv K D} {s : Schema} (hs : SchemaOK s) {db : DB V}
    (hdb : DBOK s db) {preds : List ((String × PName) × RowPred V K)} (hp : PredsOK s preds) :
    rowChecks handled env (predRows s db) preds [] = rowChecks handled env (fun t => rows (tableOf s t) (db t)) preds [] :=
  rowChecks_congr (fun p hpm => predRows_eq hs hdb (hp.tables p hpm)) []

theorem rowsKeys_nodup [DecidableEq V] {s : Schema} (hs : SchemaOK s) {db : DB V} (hdb : DBOK s db) {t : String}
    (ht : t ∈ PyDict.keys s) : ((rows (tableOf s t) (db t)).map Prod.fst).Nodup := by
  rw [rows_eq_items, List.map_map]
  exact items_keys_nodup (tableOK_of_mem hs hdb ht)

/-- **C15, exactness.**  If exceptions are handled as failures, or none is raised, `find_data_row_failures` returns.  A
predicate is in the result iff it has an entry: a bulk entry when its keyword arguments cannot be made, or a rejected row.
Each entry is listed once, and the entries are exactly those of the specification. -/
theorem find_rows_exact [DecidableEq V] {handled : Bool} {env : PredEnv K D} {s : Schema} (hs : SchemaOK s)
    {preds : List ((String × PName) × RowPred V K)} (hp : PredsOK s preds) (hag : MakersAgree env preds) {db : DB V}
    (hdb : DBOK s db) (h : handled = true ∨ NoRaise env (fun t => rows (tableOf s t) (db t)) preds) :
    ∃ d, findRows handled env s preds db none = some d ∧ (PyDict.keys d).Nodup ∧
      (∀ key, key ∈ PyDict.keys d ↔ ∃ p, (key, p) ∈ preds ∧ ∃ x, Entry env (rows (tableOf s key.1) (db key.1)) key p x) ∧
      (∀ key p vs, (key, p) ∈ preds → d.get? key = some vs → vs.Nodup ∧
        ∀ x, x ∈ vs ↔ Entry env (rows (tableOf s key.1) (db key.1)) key p x) := by
  obtain ⟨h1, h2⟩ := rowChecks_spec hag h
  have hgi := groupBy_inv eqvB_eq (rowEvents handled env (fun t => rows (tableOf s t) (db t)) preds)
  refine ⟨_, ?_, hgi.nodup, ?_, ?_⟩
  · unfold findRows
    rw [rowChecks_rows hs hdb hp, scanChecks_eq none (by simp) _ h1]
    simp [takeLim, rowEvents]
  · intro key
    rw [hgi.mem_keys]
    constructor
    · rintro ⟨x, hx⟩
      obtain ⟨p, hpm, hE⟩ := (h2 key x).1 hx
      exact ⟨p, hpm, x, hE⟩
    · rintro ⟨p, hpm, x, hE⟩
      exact ⟨x, (h2 key x).2 ⟨p, hpm, hE⟩⟩
  · intro key p vs hpm hg
    refine ⟨?_, ?_⟩
    · exact (hgi.distinct key vs hg).imp (fun h => by simpa using h)
    · intro x
      constructor
      · intro hx
        obtain ⟨p', hpm', hE⟩ := (h2 key x).1 (hgi.sound key vs hg x hx)
        have : p' = p := by
          have e1 := PyDict.get?_of_mem (d := preds) hp.nodup hpm
          have e2 := PyDict.get?_of_mem (d := preds) hp.nodup hpm'
          rw [e1] at e2; exact (Option.some.inj e2).symm
        rw [← this]; exact hE
      · intro hE
        obtain ⟨b, hb, e⟩ := hgi.complete key vs hg x ((h2 key x).2 ⟨p, hpm, hE⟩)
        simp at e; rw [e]; exact hb

/-- **C41, partial.**  The keyword arguments of each predicate are made as its own entry says, converted or not, provided
that predicates sharing a maker agree on the conversion.  Missing: predicates that share a maker and disagree, for which
the claim is false (`shared_maker_gets_converted_dat`). -/
theorem find_rows_converts_partial [DecidableEq V] {env : PredEnv K D} {s : Schema} (hs : SchemaOK s)
    {preds : List ((String × PName) × RowPred V K)} (hp : PredsOK s preds) (hag : MakersAgree env preds) {db : DB V}
    (hdb : DBOK s db) :
    ∃ d, findRows true env s preds db none = some d ∧
      (∀ key p vs, (key, p) ∈ preds → d.get? key = some vs → ∀ x, x ∈ vs ↔
        Entry env (rows (tableOf s key.1) (db key.1)) key p x) := by
  obtain ⟨d, h1, _, _, h2⟩ := find_rows_exact hs hp hag hdb (handled := true) (.inl rfl)
  exact ⟨d, h1, fun key p vs hm hg => (h2 key p vs hm hg).2⟩

/-- **C15, unhandled exceptions.**  With exceptions not handled and no limit, an exception of a maker, of a conversion
or of a predicate is passed on: the call raises. -/
theorem find_rows_unhandled [DecidableEq V] {env : PredEnv K D} {s : Schema} (hs : SchemaOK s)
    {preds : List ((String × PName) × RowPred V K)} (hp : PredsOK s preds) (hag : MakersAgree env preds) {db : DB V}
    (hdb : DBOK s db) (h : ¬ NoRaise env (fun t => rows (tableOf s t) (db t)) preds) :
    findRows false env s preds db none = none := by
  unfold findRows
  rw [rowChecks_rows hs hdb hp, rowChecks_pure hag _ preds (fun _ h => h) [] (memoInv_nil _ _ _)]
  rw [scanChecks_raises]
  · rfl
  · apply Classical.byContradiction
    intro hno
    apply h
    intro key p hpm
    have hno' : none ∉ pureChecks false env (fun t => rows (tableOf s t) (db t)) (key, p) := by
      intro hm
      exact hno (List.mem_flatMap.2 ⟨_, hpm, hm⟩)
    have hsp := pureKw_spec false env (key, p)
    simp only at hsp
    refine ⟨?_, ?_⟩
    · intro e he
      rw [he] at hsp
      simp only [Bool.false_eq_true, if_false] at hsp
      apply hno'
      unfold pureChecks
      rw [hsp]
      simp
    · intro kw he q hq e hr
      apply hno'
      have hpc : pureChecks false env (fun t => rows (tableOf s t) (db t)) (key, p) =
          (rows (tableOf s key.1) (db key.1)).map (fun r => rowCheck false key p kw r.1 r.2) := by
        rw [he] at hsp
        unfold pureChecks
        cases kw with
        | none => simp only at hsp; rw [hsp]; rfl
        | some k => simp only at hsp; rw [hsp]; rfl
      rw [hpc, List.mem_map]
      exact ⟨q, hq, by simp [rowCheck, callPred, hr]⟩

/-- The number of entries of a result. -/
def entryCount {PK : Type} (d : PyDict (String × PName) (List (RowFail PK))) : Nat := (d.map (fun p => p.2.length)).sum

/-- **C15, `max_failures`.**  With a limit `n ≥ 1` the entries reported are among those of the unlimited call, and there
are exactly `min n` of the total. -/
theorem find_rows_max_failures [DecidableEq V] {handled : Bool} {env : PredEnv K D} {s : Schema} (hs : SchemaOK s)
    {preds : List ((String × PName) × RowPred V K)} (hp : PredsOK s preds) (hag : MakersAgree env preds) {db : DB V}
    (hdb : DBOK s db) (h : handled = true ∨ NoRaise env (fun t => rows (tableOf s t) (db t)) preds) (n : Nat)
    (hn : 1 ≤ n) :
    ∃ d dn, findRows handled env s preds db none = some d ∧ findRows handled env s preds db (some n) = some dn ∧
      (∀ key vs, dn.get? key = some vs → ∃ ws, d.get? key = some ws ∧ ∀ x ∈ vs, x ∈ ws) ∧
      entryCount dn = min n (entryCount d) := by
  obtain ⟨h1, h2⟩ := rowChecks_spec hag h
  have hnd := rowEvents_nodup (handled := handled) (rowsOf := fun t => rows (tableOf s t) (db t)) hag hp.nodup (fun p hpm => rowsKeys_nodup hs hdb (hp.tables p hpm))
  have hrun : ∀ lim, lim ≠ some 0 → findRows handled env s preds db lim =
      some (groupBy (fun a b => decide (a = b)) (takeLim lim
        (rowEvents handled env (fun t => rows (tableOf s t) (db t)) preds))) := by
    intro lim hl
    unfold findRows
    rw [rowChecks_rows hs hdb hp, scanChecks_eq lim hl _ h1]
    simp [rowEvents]
  have hgi := groupBy_inv eqvB_eq (rowEvents handled env (fun t => rows (tableOf s t) (db t)) preds)
  have hgn := groupBy_inv eqvB_eq (takeLim (some n) (rowEvents handled env (fun t => rows (tableOf s t) (db t)) preds))
  refine ⟨_, _, hrun none (by simp), hrun (some n) (by simp; omega), ?_, ?_⟩
  · intro key vs hg
    have hk := (hgn.mem_keys key).1 (by
      have := PyDict.get?_mem hg
      exact List.mem_map.2 ⟨_, this, rfl⟩)
    obtain ⟨a, ha⟩ := hk
    have hk2 := (hgi.mem_keys key).2 ⟨a, (takeLim_sublist _ _).mem ha⟩
    cases hg2 : (groupBy (fun a b => decide (a = b)) (takeLim none
        (rowEvents handled env (fun t => rows (tableOf s t) (db t)) preds))).get? key with
    | none => exact absurd hk2 ((PyDict.get?_eq_none _ _).1 hg2)
    | some ws =>
      refine ⟨ws, rfl, ?_⟩
      intro x hx
      obtain ⟨b, hb, e⟩ := hgi.complete key ws hg2 x ((takeLim_sublist _ _).mem (hgn.sound key vs hg x hx))
      simp at e; rw [e]; exact hb
  · unfold entryCount
    rw [groupBy_total _ ((takeLim_sublist _ _).nodup hnd), groupBy_total _ ((takeLim_sublist _ _).nodup hnd)]
    simp [takeLim]

/-- **C15, the two response modes.**  If a predicate only returns the literal `True`, returns something falsey or raises,
then it rejects the same rows in "Boolean" and in "Error Message" mode. -/
theorem response_modes_agree (p q : RowPred V K) (hrun : p.run = q.run) (hp : p.message = false) (hq : q.message = true)
    (kw : Option K) (r : Rec V) (h : ∀ text, p.run kw r ≠ .ret (.obj true text)) :
    (∃ e, Rejects p kw r e) ↔ (∃ e, Rejects q kw r e) := by
  constructor
  · rintro ⟨e, hR⟩
    cases hR with
    | falsey _ h' => exact ⟨_, .notTrue hq (by rw [← hrun]; exact h')⟩
    | raisedBool _ h' => exact ⟨_, .raisedMsg hq (by rw [← hrun]; exact h')⟩
    | notTrue h' _ => rw [hp] at h'; cases h'
    | raisedMsg h' _ => rw [hp] at h'; cases h'
  · rintro ⟨e, hR⟩
    cases hR with
    | falsey h' _ => rw [hq] at h'; cases h'
    | raisedBool h' _ => rw [hq] at h'; cases h'
    | @notTrue b text _ h' =>
      rw [← hrun] at h'
      cases b
      · exact ⟨_, .falsey hp h'⟩
      · exact absurd h' (h text)
    | raisedMsg _ h' => exact ⟨_, .raisedBool hp (by rw [hrun]; exact h')⟩

end Ticdat
