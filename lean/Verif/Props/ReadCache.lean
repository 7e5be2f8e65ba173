import Verif.Spec.ReadCache
import Verif.Props.Used
import Verif.Props.Params
/-!
# C86: readers follow the settings of their factory
-/
set_option linter.unusedSectionVars false
set_option linter.unusedSimpArgs false
namespace Ticdat
open Spec PyDict
variable {V K : Type}

/-- Which calls leave data types or default values alone. -/
theorem fstep_keeps (env : FactoryEnv) (f g : Factory V K) (op : FOp V K) (r : Bool) (hst : FStep env f op g r) :
    (clearsBias f r op = false → g.types = f.types) ∧ (¬ SetsTypes (.call op) → g.types = f.types ∧ g.defaults = f.defaults) := by
  have tr : ∀ (P : Factory V K → Prop) (o : Option (Factory V K)), P f → (∀ g', o = some g' → P g') → f.tryOp o = (g, r) → P g := by
    intro P o hf ho h
    cases o with
    | none => simp only [Factory.tryOp, Prod.mk.injEq] at h; rw [← h.1]; exact hf
    | some g' => simp only [Factory.tryOp, Prod.mk.injEq] at h; rw [← h.1]; exact ho _ rfl
  cases hst with
  | impliedUsed _ => exact ⟨fun _ => rfl, fun _ => ⟨rfl, rfl⟩⟩
  | implied _ _ => exact ⟨fun _ => rfl, fun _ => ⟨rfl, rfl⟩⟩
  | plain hne h =>
    have both : (g.types = f.types ∧ g.defaults = f.defaults) → (clearsBias f r op = false → g.types = f.types) ∧
        (¬ SetsTypes (.call op) → g.types = f.types ∧ g.defaults = f.defaults) := fun e => ⟨fun _ => e.1, fun _ => e⟩
    cases op with
    | addImplied => exact absurd rfl hne
    | setDataType t fld a =>
      refine ⟨fun e => ?_, fun e => absurd trivial e⟩
      simp only [Factory.apply] at h
      cases hs : f.setDataType t fld a with
      | none => simp only [hs, Factory.tryOp, Prod.mk.injEq] at h; rw [← h.1]
      | some g' =>
        simp only [hs, Factory.tryOp, Prod.mk.injEq] at h
        rw [← h.2] at e
        simp [clearsBias] at e
    | clearDataType t fld =>
      refine ⟨fun e => ?_, fun e => absurd trivial e⟩
      simp only [Factory.apply, Factory.clearDataType] at h
      cases hr : get? f.types t with
      | none => simp only [hr, Factory.tryOp, Prod.mk.injEq] at h; rw [← h.1]
      | some row =>
        rw [hr] at h
        cases hf : has row fld with
        | false => simp [hf, Factory.tryOp, Prod.mk.injEq] at h; rw [← h.1]
        | true =>
          cases hu : f.used with
          | true => simp [hf, hu, Factory.tryOp, Prod.mk.injEq] at h; rw [← h.1]
          | false =>
            simp only [hf, hu, if_true, Bool.false_eq_true, if_false, Factory.tryOp, Prod.mk.injEq] at h
            rw [← h.2] at e
            simp only [clearsBias, DataTypes.at, hr, Option.bind_some, Bool.not_false, Bool.true_and] at e
            unfold has at hf
            rw [e] at hf
            simp at hf
    | setDefault t fld c =>
      refine ⟨fun _ => tr (fun g => g.types = f.types) _ rfl ?_ h, fun e => absurd trivial e⟩
      intro g' e
      unfold Factory.setDefault at e
      split at e
      · simp only [Option.some.injEq] at e; subst e; rfl
      · simp at e
    | setDefaults l =>
      refine ⟨fun _ => ?_, fun e => absurd trivial e⟩
      simp only [Factory.apply, Factory.setDefaults] at h
      split at h
      · simp only [Prod.mk.injEq] at h; rw [← h.1]
      · have : ∀ (l : List (String × PyDict String Cell)) (f : Factory V K), (Factory.setDefaultsLoop l f).1.types = f.types := by
          intro l
          induction l with
          | nil => intro f; rfl
          | cons p l ih =>
            intro f
            rw [Factory.setDefaultsLoop]
            split
            · rw [ih]
            · rfl
        have e := this l f
        rw [h] at e
        exact e
    | setAutomunge b => simp only [Factory.apply, Prod.mk.injEq] at h; exact both (by rw [← h.1]; exact ⟨rfl, rfl⟩)
    | enableLinks => simp only [Factory.apply, Prod.mk.injEq] at h; exact both (by rw [← h.1]; exact ⟨rfl, rfl⟩)
    | use => simp only [Factory.apply, Prod.mk.injEq] at h; exact both (by rw [← h.1]; exact ⟨rfl, rfl⟩)
    | setFlag c =>
      refine both (tr (fun g => g.types = f.types ∧ g.defaults = f.defaults) _ ⟨rfl, rfl⟩ ?_ h)
      intro g e
      obtain ⟨x, _, rfl⟩ := Option.map_eq_some_iff.1 e
      exact ⟨rfl, rfl⟩
    | setTrailing c =>
      refine both (tr (fun g => g.types = f.types ∧ g.defaults = f.defaults) _ ⟨rfl, rfl⟩ ?_ h)
      intro g e
      obtain ⟨x, _, rfl⟩ := Option.map_eq_some_iff.1 e
      exact ⟨rfl, rfl⟩
    | setDups c =>
      refine both (tr (fun g => g.types = f.types ∧ g.defaults = f.defaults) _ ⟨rfl, rfl⟩ ?_ h)
      intro g e
      obtain ⟨x, _, rfl⟩ := Option.map_eq_some_iff.1 e
      exact ⟨rfl, rfl⟩
    | addParam n d a =>
      refine both (tr (fun g => g.types = f.types ∧ g.defaults = f.defaults) _ ⟨rfl, rfl⟩ ?_ h)
      intro g e
      unfold Factory.addParam at e
      split at e
      · split at e
        · simp at e
        · obtain ⟨x, _, rfl⟩ := Option.map_eq_some_iff.1 e
          exact ⟨rfl, rfl⟩
      · simp at e
    | _ =>
      refine both (tr (fun g => g.types = f.types ∧ g.defaults = f.defaults) _ ⟨rfl, rfl⟩ ?_ h)
      intro g e
      simp only [Factory.addFK, Factory.clearFKs, Factory.removeParam, Factory.setGenerators, Factory.setTooltip,
        Factory.addRowPred] at e
      repeat' split at e
      all_goals first
        | (simp only [Option.some.injEq] at e; subst e; exact ⟨rfl, rfl⟩)
        | simp at e

/-! ### What a reader remembers -/

theorem note_factory (l : List (String × String)) (r : FileReader V K) :
    (l.foldl FileReader.note r).factory = r.factory ∧ (l.foldl FileReader.note r).bias = r.bias := by
  induction l generalizing r with
  | nil => exact ⟨rfl, rfl⟩
  | cons k l ih =>
    rw [List.foldl_cons, (ih _).1, (ih _).2]
    unfold FileReader.note
    split <;> exact ⟨rfl, rfl⟩

/-- After the fields `l` were met: those remembered before keep what was remembered, the others have the present settings. -/
theorem note_cache (l : List (String × String)) (r : FileReader V K) (k : String × String) :
    get? (l.foldl FileReader.note r).cache k =
      (match get? r.cache k with
       | some v => some v
       | none => if k ∈ l then some (r.factory.lookup k.1 k.2) else none) := by
  induction l generalizing r with
  | nil => cases h : get? r.cache k <;> simp [h]
  | cons a l ih =>
    rw [List.foldl_cons, ih]
    unfold FileReader.note
    cases ha : has r.cache a with
    | true =>
      simp only [if_true]
      cases h : get? r.cache k with
      | some v => rfl
      | none =>
        have : k ≠ a := by
          rintro rfl
          unfold has at ha
          rw [h] at ha
          simp at ha
        simp [this]
    | false =>
      simp only [Bool.false_eq_true, if_false, get?_set]
      by_cases e : a = k
      · subst e
        have : get? r.cache a = none := by
          unfold has at ha
          cases h : get? r.cache a with
          | none => rfl
          | some v => rw [h] at ha; simp at ha
        simp [this]
      · have e' : ¬ k = a := fun h => e h.symm
        simp only [if_neg e, List.mem_cons, e', false_or]

/-- The remembered settings are the present ones. -/
def Coherent (r : FileReader V K) : Prop := ∀ k v, get? r.cache k = some v → v = r.factory.lookup k.1 k.2

theorem coherent_getDvDt {r : FileReader V K} (h : Coherent r) : r.getDvDt = r.factory.lookup := by
  funext t f
  unfold FileReader.getDvDt
  cases e : get? r.cache (t, f) with
  | none => rfl
  | some v => simp [h _ v e]

theorem readsCurrent_of {r : FileReader V K} (h : Coherent r) : ReadsCurrent r := by
  have e := coherent_getDvDt h
  constructor <;> intros <;> rw [e] <;> rfl

theorem lookup_congr {f g : Factory V K} (ht : g.types = f.types) (hd : g.defaults = f.defaults) : g.lookup = f.lookup := by
  funext t x
  simp only [Factory.lookup, ht, hd]

theorem coherent_step {env : FactoryEnv} {r s : FileReader V K} {op : ROp V K} (h : RStep env r op s)
    (hop : ¬ SetsTypes op ∨ r.factory.used = true) (hc : Coherent r) : Coherent s := by
  cases h with
  | @call op g _ hst =>
    have e : g.types = r.factory.types ∧ g.defaults = r.factory.defaults := by
      rcases hop with hop | hu
      · exact (fstep_keeps env _ _ _ _ hst).2 hop
      · have := (used_step env _ _ _ _ hu hst).2.1
        exact ⟨this.types, this.defaults⟩
    intro k v hk
    rw [hc k v hk]
    exact (congrFun (congrFun (lookup_congr e.1 e.2) k.1) k.2).symm
  | read =>
    intro k v hk
    simp only [note_cache] at hk
    cases e : get? r.cache k with
    | some w =>
      rw [e] at hk
      simp only [Option.some.injEq] at hk
      rw [← hk, hc k w e]
      rfl
    | none =>
      rw [e] at hk
      simp only at hk
      split at hk
      · simp only [Option.some.injEq] at hk
        rw [← hk]
        rfl
      · simp at hk
  | ask =>
    intro k v hk
    unfold FileReader.askBias at hk ⊢
    split
    · rename_i h; rw [if_pos h] at hk; exact hc k v hk
    · rename_i h
      rw [if_neg h] at hk
      split at hk
      · exact hc k v hk
      · split at hk <;> exact hc k v hk

theorem rstep_used {env : FactoryEnv} {r s : FileReader V K} {op : ROp V K} (h : RStep env r op s)
    (hu : r.factory.used = true) : s.factory.used = true := by
  cases h with
  | call hst => exact (used_step env _ _ _ _ hu hst).1
  | read => simp [hu]
  | ask =>
    unfold FileReader.askBias
    repeat' split
    all_goals exact hu

theorem rstep_cache {env : FactoryEnv} {r s : FileReader V K} {op : ROp V K} (h : RStep env r op s) (hop : ¬ IsRead op) :
    s.cache = r.cache := by
  cases h with
  | call hst => rfl
  | read => exact absurd trivial hop
  | ask =>
    unfold FileReader.askBias
    repeat' split
    all_goals rfl

theorem rrun_cache {env : FactoryEnv} {r s : FileReader V K} {ops : List (ROp V K)} (h : RRun env r ops s)
    (hop : ∀ op ∈ ops, ¬ IsRead op) : s.cache = r.cache := by
  induction h with
  | nil => rfl
  | cons hst _ ih =>
    rw [ih (fun op h => hop op (List.mem_cons_of_mem _ h)), rstep_cache hst (hop _ (List.mem_cons_self ..))]

theorem rrun_coherent {env : FactoryEnv} {r s : FileReader V K} {ops : List (ROp V K)} (h : RRun env r ops s)
    (hop : ∀ op ∈ ops, ¬ SetsTypes op) (hc : Coherent r) : Coherent s := by
  induction h with
  | nil => exact hc
  | cons hst _ ih =>
    exact ih (fun op h => hop op (List.mem_cons_of_mem _ h)) (coherent_step hst (.inl (hop _ (List.mem_cons_self ..))) hc)

theorem rrun_coherent_used {env : FactoryEnv} {r s : FileReader V K} {ops : List (ROp V K)} (h : RRun env r ops s)
    (hu : r.factory.used = true) (hc : Coherent r) : Coherent s := by
  induction h with
  | nil => exact hc
  | cons hst _ ih => exact ih (rstep_used hst hu) (coherent_step hst (.inr hu) hc)

/-- **C86.**  A factory is set up with any calls, then files are read and other calls made, but data types and default values stay as
they are, until a `TicDat` has been created (by a reader or otherwise); from there on anything may be called.  At every point the
readers of csv and Excel files, `create_tic_dat` and `find_duplicates`, give what a new factory with the present settings gives.  What
is missing: data types or default values changed after a first read that has created no `TicDat`, see `stale_settings`. -/
theorem reads_current_partial (env : FactoryEnv) (f : Factory V K) (setup first rest : List (ROp V K)) (r1 r2 r3 : FileReader V K)
    (h1 : RRun env (.new f) setup r1) (hs : ∀ op ∈ setup, ¬ IsRead op)
    (h2 : RRun env r1 first r2) (hf : ∀ op ∈ first, ¬ SetsTypes op)
    (h3 : RRun env r2 rest r3) (hr : rest = [] ∨ r2.factory.used = true) : ReadsCurrent r3 := by
  have c1 : Coherent r1 := by
    intro k v hk
    rw [rrun_cache h1 hs] at hk
    simp [FileReader.new, get?] at hk
  have c2 := rrun_coherent h2 hf c1
  refine readsCurrent_of ?_
  rcases hr with rfl | hu
  · cases h3; exact c2
  · exact rrun_coherent_used h3 hu c2

/-- The field is among those that the step meets. -/
def Meets (k : String × String) : ROp V K → Prop
  | .read fields _ => k ∈ fields
  | _ => False

theorem rstep_get {env : FactoryEnv} {r s : FileReader V K} {op : ROp V K} (h : RStep env r op s) (k : String × String) :
    (∀ v, get? r.cache k = some v → get? s.cache k = some v) ∧ (¬ Meets k op → get? s.cache k = get? r.cache k) := by
  cases h with
  | call hst => exact ⟨fun _ h => h, fun _ => rfl⟩
  | @ask t f =>
    rw [rstep_cache (RStep.ask (env := env) (r := r) (t := t) (f := f)) (fun h => h)]
    exact ⟨fun _ h => h, fun _ => rfl⟩
  | read =>
    constructor
    · intro v hv
      simp only [note_cache, hv]
    · intro hm
      simp only [note_cache]
      have hm : k ∉ _ := hm
      rw [if_neg hm]
      cases get? r.cache k <;> rfl

/-- **C86.**  Exactly which settings a reader works with, after any history: for a field that no read has met, the present ones; for any
other, those at the time it was first met. -/
theorem first_read_wins (env : FactoryEnv) (f : Factory V K) (before rest : List (ROp V K)) (r1 r2 r3 : FileReader V K)
    (k : String × String) (h1 : RRun env (.new f) before r1) (hb : ∀ op ∈ before, ¬ Meets k op) :
    r1.getDvDt k.1 k.2 = r1.factory.lookup k.1 k.2 ∧
    ∀ fields creates, k ∈ fields → RStep env r1 (.read fields creates) r2 → RRun env r2 rest r3 →
      r3.getDvDt k.1 k.2 = r1.factory.lookup k.1 k.2 := by
  have c1 : get? r1.cache k = none := by
    have : ∀ {r : FileReader V K} {ops}, RRun env r ops r1 → (∀ op ∈ ops, ¬ Meets k op) → get? r1.cache k = get? r.cache k := by
      intro r ops h
      induction h with
      | nil => intro _; rfl
      | cons hst _ ih =>
        intro hb
        rw [ih h1 (fun op h => hb op (List.mem_cons_of_mem _ h)), (rstep_get hst k).2 (hb _ (List.mem_cons_self ..))]
    rw [this h1 hb]
    rfl
  have keep : ∀ {r s : FileReader V K} {ops} v, RRun env r ops s → get? r.cache k = some v → get? s.cache k = some v := by
    intro r s ops v h
    induction h with
    | nil => exact fun h => h
    | cons hst _ ih => exact fun h => ih ((rstep_get hst k).1 v h)
  constructor
  · simp [FileReader.getDvDt, c1]
  · intro fields creates hk hst h3
    have e2 : get? r2.cache k = some (r1.factory.lookup k.1 k.2) := by
      cases hst
      simp only [note_cache, c1, if_pos hk]
    simp [FileReader.getDvDt, keep _ h3 e2]

/-! ### The signs -/

theorem infBias_eq (env : TextEnv) (f : Factory V K) (t fld : String) : infBias env f.ioConf t fld =
    if f.flag ≠ .none then some none else typeBias env f.types t fld := rfl

/-- The remembered signs are right. -/
def BiasRight (env : TextEnv) (r : FileReader V K) : Prop :=
  ∀ t fld b, get? r.bias (t, fld) = some b → typeBias env r.factory.types t fld = some b

theorem askBias_right {env : TextEnv} {r : FileReader V K} (h : BiasRight env r) (t fld : String) :
    (r.askBias env t fld).1 = infBias env r.factory.ioConf t fld := by
  rw [infBias_eq]
  unfold FileReader.askBias
  split
  · rfl
  · split
    · rename_i b hb; rw [h t fld b hb]
    · split
      · rename_i e; rw [e]
      · rename_i e; rw [e]

theorem biasRight_step {env : FactoryEnv} {r s : FileReader V K} {op : ROp V K} (h : RStep env r op s)
    (hb : BiasRight env.text r) : BiasRight env.text s := by
  cases h with
  | call hst =>
    intro t fld b e
    simp only at e ⊢
    split at e
    · simp [get?] at e
    · rename_i hc
      rw [(fstep_keeps env _ _ _ _ hst).1 (by simpa using hc)]
      exact hb t fld b e
  | read =>
    intro t fld b e
    simp only [(note_factory _ _).2] at e
    exact hb t fld b e
  | ask =>
    rename_i t0 f0
    unfold FileReader.askBias
    split
    · exact hb
    · split
      · exact hb
      · split
        · exact hb
        · rename_i b0 e0
          intro t fld b e
          simp only [get?_set] at e
          split at e
          · rename_i hk
            simp only [Prod.mk.injEq] at hk
            obtain ⟨rfl, rfl⟩ := hk
            simp only [Option.some.injEq] at e
            rw [← e]
            exact e0
          · exact hb t fld b e

/-- **C86.**  After any history of calls, reads and questions, the sign of the infinity that a missing number stands for is the one that
the present flag and data types give, whatever has been asked before. -/
theorem bias_current (env : FactoryEnv) (f : Factory V K) (ops : List (ROp V K)) (r : FileReader V K)
    (h : RRun env (.new f) ops r) (t fld : String) :
    (r.askBias env.text t fld).1 = infBias env.text r.factory.ioConf t fld := by
  refine askBias_right ?_ t fld
  have : BiasRight env.text (FileReader.new f) := by
    intro t fld b e
    simp [FileReader.new, get?] at e
  generalize FileReader.new f = r0 at h this
  induction h with
  | nil => exact this
  | cons hst _ ih => exact ih (biasRight_step hst this)

/-! ### A stale setting -/

def staleSchema : List (String × TabClass) := [("t", ⟨["k"], ["v"], [("v", .num (.fin 0))]⟩)]
def staleDir : PyDict (List Char) CsvFile := [("t.csv".toList, [["k", "v"], ["ab", "aab"]])]
def staleEnv : FactoryEnv := ⟨unaryText, asciiEnv, fun _ => false⟩
def staleArgs : TypeArgs := ⟨true, true, true, .num .ninf, .num .pinf, false, .coll [], false, false⟩
def staleFactory : Factory Nat Nat := (newFactory staleEnv [("t", .fields ["k"] ["v"])]).getD
  ⟨[], [], [], [], [], [], [], false, [], .na, true, .assert, true, false⟩
def staleTyped : Factory Nat Nat := ((staleFactory.setDataType "t" "k" staleArgs).getD staleFactory)
def staleCache : PyDict (String × String) (Option Cell × Option TypeDict) :=
  [(("t", "k"), (none, none)), (("t", "v"), (some (.num (.fin 0)), none))]

/-- **Finding (C86).**  A table has a key field without data type.  `find_duplicates` reads the file, which creates no `TicDat`; then
`set_data_type` makes the key a number and does not raise.  But `create_tic_dat` of this factory reads the key `1` as a text, where a
new factory with the same settings reads a number. -/
theorem stale_settings : ∃ r : FileReader Nat Nat,
    newFactory staleEnv [("t", .fields ["k"] ["v"])] = some staleFactory ∧
    RRun staleEnv (.new staleFactory) [.read [("t", "k"), ("t", "v")] false, .call (.setDataType "t" "k" staleArgs)] r ∧
    (staleFactory.setDataType "t" "k" staleArgs).isSome = true ∧
    csvCreateBy unaryText asciiEnv r.factory.ioConf r.getDvDt .assert true staleSchema staleDir =
      some [("t", .keyed [(.one (.str "ab"), [("v", .num (.fin 2))])])] ∧
    csvCreate unaryText asciiEnv r.factory.ioConf (currentDefaults r.factory) .assert true staleSchema staleDir =
      some [("t", .keyed [(.one (.num (.fin 1)), [("v", .num (.fin 2))])])] := by
  refine ⟨⟨staleTyped, staleCache, []⟩, rfl, ?_, by decide +kernel, by decide +kernel, by decide +kernel⟩
  refine .cons (s := ⟨staleFactory, staleCache, []⟩) ?_ (.cons (s := ⟨staleTyped, staleCache, []⟩) ?_ .nil)
  · exact .read
  · exact .call (raised := false) (.plain (by simp) (by rfl))

/-! ### The hypotheses are met -/

def staleRead : ROp Nat Nat := .read [("t", "k"), ("t", "v")] true
def staleCache' : PyDict (String × String) (Option Cell × Option TypeDict) :=
  [(("t", "k"), (none, staleTyped.types.at "t" "k")), (("t", "v"), (some (.num (.fin 0)), none))]

/-- A data type is set, files are read with success, and then setting a data type fails; the reader reads the key as a number. -/
example : ∃ r : FileReader Nat Nat, RRun staleEnv (.new staleFactory) [.call (.setDataType "t" "k" staleArgs)] ⟨staleTyped, [], []⟩ ∧
    RRun staleEnv ⟨staleTyped, [], []⟩ [staleRead] ⟨{ staleTyped with used := true }, staleCache', []⟩ ∧
    RRun staleEnv ⟨{ staleTyped with used := true }, staleCache', []⟩ [.call (.setDataType "t" "v" staleArgs), staleRead] r ∧
    ReadsCurrent r ∧ csvCreateBy unaryText asciiEnv r.factory.ioConf r.getDvDt .assert true staleSchema staleDir =
      some [("t", .keyed [(.one (.num (.fin 1)), [("v", .num (.fin 2))])])] := by
  have h1 : RRun staleEnv (.new staleFactory) [.call (.setDataType "t" "k" staleArgs)] ⟨staleTyped, [], []⟩ :=
    .cons (.call (raised := false) (.plain (by simp) (by rfl))) .nil
  have h2 : RRun staleEnv ⟨staleTyped, [], []⟩ [staleRead] ⟨{ staleTyped with used := true }, staleCache', []⟩ :=
    .cons .read .nil
  have h3 : RRun staleEnv ⟨{ staleTyped with used := true }, staleCache', []⟩ [.call (.setDataType "t" "v" staleArgs), staleRead]
      ⟨{ staleTyped with used := true }, staleCache', []⟩ :=
    .cons (s := ⟨{ staleTyped with used := true }, staleCache', []⟩) (.call (raised := true) (.plain (by simp) (by rfl)))
      (.cons .read .nil)
  exact ⟨_, h1, h2, h3, reads_current_partial staleEnv staleFactory _ _ _ _ _ _ h1 (by simp [IsRead]) h2 (by simp [staleRead, SetsTypes]) h3
    (.inr rfl), by decide +kernel⟩

def upArgs : TypeArgs := ⟨true, true, true, .num (.fin 0), .num .pinf, false, .coll [], false, false⟩
def downArgs : TypeArgs := ⟨true, true, true, .num .ninf, .num (.fin 0), false, .coll [], false, false⟩
def biasFactory (a : TypeArgs) : Factory Nat Nat := (({ staleFactory with flag := .none } : Factory Nat Nat).setDataType "t" "v" a).getD staleFactory

/-- A sign is asked for, the data type changes, and the sign asked for again is the other one. -/
example : RRun staleEnv (.new staleFactory) [.call (.setFlag .none), .call (.setDataType "t" "v" upArgs), .ask "t" "v",
      .call (.setDataType "t" "v" downArgs)] ⟨biasFactory downArgs, [], []⟩ ∧
    ((⟨biasFactory upArgs, [], []⟩ : FileReader Nat Nat).askBias unaryText "t" "v") =
      (some (some true), ⟨biasFactory upArgs, [], [(("t", "v"), some true)]⟩) ∧
    ((⟨biasFactory downArgs, [], []⟩ : FileReader Nat Nat).askBias unaryText "t" "v").1 = some (some false) := by
  refine ⟨.cons (s := ⟨{ staleFactory with flag := .none }, [], []⟩) (.call (raised := false) (.plain (by simp) (by rfl)))
    (.cons (s := ⟨biasFactory upArgs, [], []⟩) (.call (raised := false) (.plain (by simp) (by rfl)))
    (.cons (s := ⟨biasFactory upArgs, [], [(("t", "v"), some true)]⟩) .ask
    (.cons (.call (raised := false) (.plain (by simp) (by rfl))) .nil))), ?_, ?_⟩
  · rfl
  · rfl

end Ticdat
