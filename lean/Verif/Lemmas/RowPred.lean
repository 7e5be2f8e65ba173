import Verif.Lemmas.DataType
import Verif.Lemmas.Group
import Verif.Spec.RowPred
/-! # Lemmas on row predicates -/
set_option linter.unusedSimpArgs false
set_option linter.unusedSectionVars false
namespace Ticdat
open Spec
variable {V K D PK : Type}

theorem usesConvert_iff (env : PredEnv K D) (key : String × PName) :
    usesConvert env key = true ↔ WantsConversion env key := by
  simp [usesConvert, WantsConversion]

/-- The keyword arguments without the memo. -/
def pureKw (handled : Bool) (env : PredEnv K D) (p : (String × PName) × RowPred V K) : Option (Option (KwVal K)) :=
  match p.2.maker with
  | none => some none
  | some m =>
    match datFor handled env p.1 with
    | none => none
    | some d => (callMaker handled env m d).map some

def pureChecks (handled : Bool) (env : PredEnv K D) (rowsOf : String → List (PK × Rec V))
    (p : (String × PName) × RowPred V K) : List (Option (Option ((String × PName) × RowFail PK))) :=
  match pureKw handled env p with
  | none => [none]
  | some kw => predChecks handled rowsOf p.1 p.2 kw

/-- The memo holds what the maker of each predicate would return. -/
def MemoInv (handled : Bool) (env : PredEnv K D) (preds : List ((String × PName) × RowPred V K)) (memo : Memo K) : Prop :=
  ∀ m kw, memo.get? m = some kw → ∀ p ∈ preds, p.2.maker = some m → ∀ d, datFor handled env p.1 = some d →
    callMaker handled env m d = some kw

theorem datFor_congr {handled : Bool} {env : PredEnv K D} {a b : String × PName}
    (h : WantsConversion env a ↔ WantsConversion env b) : datFor handled env a = datFor handled env b := by
  rw [← usesConvert_iff, ← usesConvert_iff] at h
  have : usesConvert env a = usesConvert env b := by
    cases ha : usesConvert env a <;> cases hb : usesConvert env b <;> simp_all
  unfold datFor
  rw [this]

theorem kwargsStep_pure {handled : Bool} {env : PredEnv K D} {all : List ((String × PName) × RowPred V K)}
    (hag : MakersAgree env all) {memo : Memo K} (hinv : MemoInv handled env all memo)
    {p : (String × PName) × RowPred V K} (hp : p ∈ all) :
    (kwargsStep handled env memo p).map Prod.fst = pureKw handled env p ∧
      ∀ kw memo', kwargsStep handled env memo p = some (kw, memo') → MemoInv handled env all memo' := by
  unfold kwargsStep pureKw
  cases hm : p.2.maker with
  | none =>
    refine ⟨rfl, ?_⟩
    intro kw memo' h
    simp at h; obtain ⟨_, rfl⟩ := h; exact hinv
  | some m =>
    simp only
    cases hd : datFor handled env p.1 with
    | none => simp
    | some d =>
      simp only
      cases hg : memo.get? m with
      | some kw =>
        simp only
        refine ⟨?_, ?_⟩
        · simp [hinv m kw hg p hp hm d hd]
        · intro kw' memo' h
          simp at h; obtain ⟨_, rfl⟩ := h; exact hinv
      | none =>
        simp only
        cases hc : callMaker handled env m d with
        | none => simp
        | some kw =>
          refine ⟨rfl, ?_⟩
          intro kw' memo' h
          simp at h; obtain ⟨_, rfl⟩ := h
          intro m' kw'' hg' q hq hqm d' hd'
          rw [PyDict.get?_set] at hg'
          by_cases e : m = m'
          · subst e
            simp at hg'; subst hg'
            have := datFor_congr (handled := handled) (hag p hp q hq (by rw [hm]; rfl) (hm.trans hqm.symm))
            rw [hd, hd'] at this
            cases this
            exact hc
          · simp [e] at hg'
            exact hinv m' kw'' hg' q hq hqm d' hd'

theorem rowChecks_pure {handled : Bool} {env : PredEnv K D} {all : List ((String × PName) × RowPred V K)}
    (hag : MakersAgree env all) (rowsOf : String → List (PK × Rec V)) (ps : List ((String × PName) × RowPred V K))
    (hsub : ∀ p ∈ ps, p ∈ all) (memo : Memo K) (hinv : MemoInv handled env all memo) :
    rowChecks handled env rowsOf ps memo = ps.flatMap (pureChecks handled env rowsOf) := by
  induction ps generalizing memo with
  | nil => rfl
  | cons p ps ih =>
    obtain ⟨h1, h2⟩ := kwargsStep_pure hag hinv (hsub p List.mem_cons_self)
    have ih' := fun memo hinv => ih (fun q hq => hsub q (List.mem_cons_of_mem _ hq)) memo hinv
    rw [rowChecks, List.flatMap_cons]
    cases hk : kwargsStep handled env memo p with
    | none =>
      rw [hk] at h1
      simp only [Option.map_none] at h1
      simp only [pureChecks, ← h1, ih' memo hinv]
      rfl
    | some q =>
      obtain ⟨kw, memo'⟩ := q
      rw [hk] at h1
      simp only [Option.map_some] at h1
      simp only [pureChecks, ← h1, ih' memo' (h2 kw memo' hk)]

/-- The keyword arguments of the model are those of the specification. -/
theorem pureKw_spec (handled : Bool) (env : PredEnv K D) (p : (String × PName) × RowPred V K) :
    match ownArgs env p.1 p.2 with
    | .args none => pureKw handled env p = some none
    | .args (some k) => pureKw handled env p = some (some (.dict k))
    | .notDict m => ∃ kw, pureKw handled env p = some (some kw) ∧ (∀ k, kw ≠ .dict k) ∧ bulkMessage kw = m
    | .raises e => if handled then
        pureKw handled env p = some (some (.str (excText e))) else pureKw handled env p = none := by
  have hmk : ∀ m d, match makerArgs (env.makers m d) with
      | .args none => False
      | .args (some k) => (callMaker handled env m (.inl d)).map some = some (some (.dict k))
      | .notDict msg => ∃ kw, (callMaker handled env m (.inl d)).map some = some (some kw) ∧ (∀ k, kw ≠ .dict k) ∧
          bulkMessage kw = msg
      | .raises e => if handled then
          (callMaker handled env m (.inl d)).map some = some (some (.str (excText e)))
          else (callMaker handled env m (.inl d)).map some = (none : Option (Option (KwVal K))) := by
    intro m d
    unfold makerArgs callMaker
    cases h : env.makers m d with
    | dict k => simp [h]
    | str s => exact ⟨.str s, by simp [h], by simp, rfl⟩
    | other => exact ⟨.other, by simp [h], by simp, rfl⟩
    | raised e => cases handled <;> simp [h]
  have lift : ∀ (A : Args K) (X : Option (Option (KwVal K))),
      (match A with
      | .args none => False
      | .args (some k) => X = some (some (.dict k))
      | .notDict msg => ∃ kw, X = some (some kw) ∧ (∀ k, kw ≠ .dict k) ∧ bulkMessage kw = msg
      | .raises e => if handled then X = some (some (.str (excText e))) else X = none) →
      (match A with
      | .args none => X = some none
      | .args (some k) => X = some (some (.dict k))
      | .notDict msg => ∃ kw, X = some (some kw) ∧ (∀ k, kw ≠ .dict k) ∧ bulkMessage kw = msg
      | .raises e => if handled then X = some (some (.str (excText e))) else X = none) := by
    intro A X h
    cases A with
    | args k => cases k <;> simp_all
    | notDict m => exact h
    | raises e => exact h
  unfold ownArgs pureKw datFor
  cases hm : p.2.maker with
  | none => simp
  | some m =>
    simp only
    cases hc : env.convert with
    | none =>
      have : usesConvert env p.1 = false := by simp [usesConvert, hc]
      simp only [this, Bool.false_eq_true, if_false]
      exact lift _ _ (hmk m env.dat)
    | some c =>
      simp only
      by_cases hu : WantsConversion env p.1
      · have hu' := (usesConvert_iff env p.1).2 hu
        simp only [hu, hu', if_true]
        cases hcd : c env.dat with
        | dat d => exact lift _ _ (hmk m d)
        | str s => simp [callMaker, bulkMessage, notDictMessage]
        | raised e => cases handled <;> simp [callMaker]
      · have hu' : usesConvert env p.1 = false := by
          cases h : usesConvert env p.1
          · rfl
          · exact absurd ((usesConvert_iff env p.1).1 h) hu
        simp only [hu, hu', if_false, Bool.false_eq_true]
        exact lift _ _ (hmk m env.dat)

/-- One test of a row, when nothing escapes. -/
theorem rowCheck_spec (handled : Bool) (key : String × PName) (p : RowPred V K) (kw : Option K) (pk : PK) (r : Rec V)
    (h : handled = true ∨ ∀ e, p.run kw r ≠ .raised e) :
    rowCheck handled key p kw pk r ≠ none ∧
    ∀ x, rowCheck handled key p kw pk r = some (some x) ↔ ∃ err, x = (key, .row pk err) ∧ Rejects p kw r err := by
  unfold rowCheck callPred
  cases hr : p.run kw r with
  | ret v =>
    cases v with
    | tru =>
      cases hm : p.message
      · simp only [PVal.truthy, Bool.false_eq_true, if_false, if_true]
        refine ⟨by simp, ?_⟩
        intro x
        constructor
        · intro h'; simp at h'
        · rintro ⟨err, _, hR⟩
          cases hR <;> simp_all
      · simp only [if_true]
        refine ⟨by simp, ?_⟩
        intro x
        constructor
        · intro h'; simp at h'
        · rintro ⟨err, _, hR⟩
          cases hR <;> simp_all
    | obj b text =>
      cases hm : p.message
      · cases b
        · simp only [PVal.truthy, Bool.false_eq_true, if_false, if_true]
          refine ⟨by simp, ?_⟩
          intro x
          constructor
          · intro h'; simp at h'; subst h'; exact ⟨none, rfl, .falsey hm hr⟩
          · rintro ⟨err, rfl, hR⟩
            cases hR <;> simp_all
        · simp only [PVal.truthy, Bool.false_eq_true, if_false, if_true]
          refine ⟨by simp, ?_⟩
          intro x
          constructor
          · intro h'; simp at h'
          · rintro ⟨err, rfl, hR⟩
            cases hR <;> simp_all
      · simp only [if_true]
        refine ⟨by simp, ?_⟩
        intro x
        constructor
        · intro h'; simp at h'; subst h'; exact ⟨_, rfl, .notTrue hm hr⟩
        · rintro ⟨err, rfl, hR⟩
          cases hR <;> simp_all
  | raised e =>
    rcases h with h | h
    · subst h
      cases hm : p.message
      · simp only [PVal.truthy, Bool.false_eq_true, if_false, if_true]
        refine ⟨by simp, ?_⟩
        intro x
        constructor
        · intro h'; simp at h'; subst h'; exact ⟨_, rfl, .raisedBool hm hr⟩
        · rintro ⟨err, rfl, hR⟩
          cases hR <;> simp_all
      · simp only [if_true]
        refine ⟨by simp, ?_⟩
        intro x
        constructor
        · intro h'; simp at h'; subst h'; exact ⟨_, rfl, .raisedMsg hm hr⟩
        · rintro ⟨err, rfl, hR⟩
          cases hR <;> simp_all [handledText, excText]
    · exact absurd hr (h e)

/-- The tests of one predicate: nothing escapes, and the failures are the entries of the specification. -/
theorem pureChecks_spec (handled : Bool) (env : PredEnv K D) (rowsOf : String → List (PK × Rec V))
    (p : (String × PName) × RowPred V K)
    (h : handled = true ∨ ((∀ e, ownArgs env p.1 p.2 ≠ .raises e) ∧
      ∀ kw, ownArgs env p.1 p.2 = .args kw → ∀ q ∈ rowsOf p.1.1, ∀ e, p.2.run kw q.2 ≠ .raised e)) :
    (∀ c ∈ pureChecks handled env rowsOf p, c ≠ none) ∧
    ∀ y, some (some y) ∈ pureChecks handled env rowsOf p ↔ ∃ x, y = (p.1, x) ∧ Entry env (rowsOf p.1.1) p.1 p.2 x := by
  have hs := pureKw_spec handled env p
  have hargs : ∀ kw : Option K, ownArgs env p.1 p.2 = .args kw →
      pureChecks handled env rowsOf p = (rowsOf p.1.1).map (fun r => rowCheck handled p.1 p.2 kw r.1 r.2) := by
    intro kw ha
    rw [ha] at hs
    unfold pureChecks
    cases kw with
    | none => simp only at hs; rw [hs]; rfl
    | some k => simp only at hs; rw [hs]; rfl
  cases ha : ownArgs env p.1 p.2 with
  | args kw =>
    rw [hargs kw ha]
    have hrow : ∀ q ∈ rowsOf p.1.1, handled = true ∨ ∀ e, p.2.run kw q.2 ≠ .raised e := by
      intro q hq
      rcases h with h | ⟨_, h⟩
      · exact Or.inl h
      · exact Or.inr (h kw ha q hq)
    refine ⟨?_, ?_⟩
    · intro c hc
      obtain ⟨q, hq, rfl⟩ := List.mem_map.1 hc
      exact (rowCheck_spec handled p.1 p.2 kw q.1 q.2 (hrow q hq)).1
    · intro y
      simp only [List.mem_map]
      constructor
      · rintro ⟨q, hq, he⟩
        obtain ⟨err, rfl, hR⟩ := ((rowCheck_spec handled p.1 p.2 kw q.1 q.2 (hrow q hq)).2 y).1 he
        exact ⟨_, rfl, .row ha hq hR⟩
      · rintro ⟨x, rfl, hE⟩
        cases hE with
        | notDict h' => rw [ha] at h'; cases h'
        | makerRaised h' => rw [ha] at h'; cases h'
        | row h' hm hR =>
          rw [ha] at h'; cases h'
          exact ⟨_, hm, ((rowCheck_spec handled p.1 p.2 _ _ _ (hrow _ hm)).2 _).2 ⟨_, rfl, hR⟩⟩
  | notDict m =>
    rw [ha] at hs
    obtain ⟨kw, h1, h2, h3⟩ := hs
    have hpc : pureChecks handled env rowsOf p = [some (some (p.1, .star m))] := by
      unfold pureChecks
      rw [h1]
      cases kw with
      | dict k => exact absurd rfl (h2 k)
      | str s => simp [predChecks, h3]
      | other => simp [predChecks, h3]
    rw [hpc]
    refine ⟨by simp, ?_⟩
    intro y
    simp only [List.mem_singleton, Option.some.injEq]
    constructor
    · rintro rfl; exact ⟨_, rfl, .notDict ha⟩
    · rintro ⟨x, rfl, hE⟩
      cases hE with
      | notDict h' => rw [ha] at h'; cases h'; rfl
      | makerRaised h' => rw [ha] at h'; cases h'
      | row h' _ _ => rw [ha] at h'; cases h'
  | raises e =>
    rw [ha] at hs
    rcases h with h | ⟨h, _⟩
    · subst h
      simp only [if_true] at hs
      have hpc : pureChecks true env rowsOf p = [some (some (p.1, .star (notDictMessage (some (handledText e)))))] := by
        unfold pureChecks
        rw [hs]
        rfl
      rw [hpc]
      refine ⟨by simp, ?_⟩
      intro y
      simp only [List.mem_singleton, Option.some.injEq]
      constructor
      · rintro rfl; exact ⟨_, rfl, .makerRaised ha⟩
      · rintro ⟨x, rfl, hE⟩
        cases hE with
        | notDict h' => rw [ha] at h'; cases h'
        | makerRaised h' => rw [ha] at h'; cases h'; rfl
        | row h' _ _ => rw [ha] at h'; cases h'
    · exact absurd ha (h e)

/-- The predicate rows of the model are the records of the specification. -/
theorem predRows_eq [DecidableEq V] {s : Schema} (hs : SchemaOK s) {db : DB V} (hdb : DBOK s db) {t : String}
    (ht : t ∈ PyDict.keys s) : predRows s db t = rows (tableOf s t) (db t) := by
  rw [rows_eq_items]
  unfold predRows
  apply List.map_congr_left
  intro p hp
  have hr := rowOK_of_items (tableOK_of_mem hs hdb ht) hp
  congr 1
  funext f
  exact fullRow_get (ts := tableOf s t) (hs.fields_nodup t) hr f

end Ticdat
