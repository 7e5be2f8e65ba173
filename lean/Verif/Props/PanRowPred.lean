import Verif.Props.RowPred
/-!
# C15 for PanDat: `PanDatFactory.find_data_row_failures` finds the same failures
-/
set_option linter.unusedSimpArgs false
set_option linter.unusedSectionVars false
namespace Ticdat
open Spec
variable {V K D : Type}

theorem foldl_groupAdd_new {Key A : Type} [DecidableEq Key] [DecidableEq A] (d : PyDict Key (List A)) (k : Key)
    (l l2 : List A) (hd : d.get? k = some l) (hn : (l ++ l2).Nodup) :
    (l2.map (fun a => (k, a))).foldl (fun d e => groupAddBy (fun a b => decide (a = b)) d e.1 e.2) d = d.set k (l ++ l2) := by
  induction l2 generalizing d l with
  | nil =>
    simp only [List.map_nil, List.foldl_nil, List.append_nil]
    induction d with
    | nil => simp at hd
    | cons p d ih =>
      obtain ⟨a, b⟩ := p
      by_cases e : a = k
      · simp [PyDict.get?, e] at hd; simp [PyDict.set, e, hd]
      · simp [PyDict.get?, e] at hd; simp only [PyDict.set, e, if_false]; rw [← ih hd]
  | cons a l2 ih =>
    have hadd : groupAddBy (fun a b => decide (a = b)) d k a = d.set k (l ++ [a]) := by
      unfold groupAddBy
      rw [hd]
      simp only
      congr 1
      unfold setAddBy
      rw [if_neg]
      intro hany
      obtain ⟨b, hb, e⟩ := List.any_eq_true.1 hany
      simp at e; subst e
      exact (List.nodup_append.1 hn).2.2 a hb a (by simp) rfl
    simp only [List.map_cons, List.foldl_cons, hadd]
    rw [ih (d.set k (l ++ [a])) (l ++ [a]) (by rw [PyDict.get?_set]; simp) (by simpa using hn)]
    have : ∀ (d : PyDict Key (List A)) (x y : List A), (d.set k x).set k y = d.set k y := by
      intro d x y
      induction d with
      | nil => simp [PyDict.set]
      | cons p d ih =>
        obtain ⟨c, b⟩ := p
        by_cases e : c = k
        · simp [PyDict.set, e]
        · simp [PyDict.set, e, ih]
    rw [this]
    simp

/-- Adding a block of new entries under a new key. -/
theorem groupBy_append_block {Key A : Type} [DecidableEq Key] [DecidableEq A] (es : List (Key × A)) (k : Key) (l : List A)
    (hk : ∀ a, (k, a) ∉ es) (hn : l.Nodup) :
    groupBy (fun a b => decide (a = b)) (es ++ l.map (fun a => (k, a))) =
      if l = [] then groupBy (fun a b => decide (a = b)) es
      else PyDict.set (groupBy (fun a b => decide (a = b)) es) k l := by
  cases l with
  | nil => simp
  | cons a l =>
    have hg : (groupBy (fun a b => decide (a = b)) es).get? k = none := by
      rw [PyDict.get?_eq_none, (groupBy_inv eqvB_eq es).mem_keys]
      rintro ⟨a, ha⟩; exact hk a ha
    simp only [reduceCtorEq, if_false]
    show (es ++ (a :: l).map (fun a => (k, a))).foldl _ [] = _
    rw [List.foldl_append]
    show ((a :: l).map (fun a => (k, a))).foldl _ (groupBy (fun a b => decide (a = b)) es) = _
    simp only [List.map_cons, List.foldl_cons]
    have hadd : groupAddBy (fun a b => decide (a = b)) (groupBy (fun a b => decide (a = b)) es) k a =
        PyDict.set (groupBy (fun a b => decide (a = b)) es) k [a] := by
      unfold groupAddBy; rw [hg]
    rw [hadd, foldl_groupAdd_new _ k [a] l (by rw [PyDict.get?_set]; simp) (by simpa using hn)]
    have : ∀ (d : PyDict Key (List A)) (x y : List A), (d.set k x).set k y = d.set k y := by
      intro d x y
      induction d with
      | nil => simp [PyDict.set]
      | cons p d ih =>
        obtain ⟨c, b⟩ := p
        by_cases e : c = k
        · simp [PyDict.set, e]
        · simp [PyDict.set, e, ih]
    rw [this]
    rfl

/-- The trip wire of `faster_df_apply` and the early return of the dict version stop at the same failure. -/
theorem scan_applyTrip {R X Key F : Type} (func : R → Option X) (bad : X → Bool) (good : X) (toFail : X → Nat → Option F)
    (hb : ∀ x i, (toFail x i).isSome = bad x) (hg : bad good = false) (key : Key) (lim : Option Nat)
    (rest : List (Option (Option (Key × F)))) (rs : List R) (k : Nat) (acc : List (Key × F))
    (hacc : tripsEnd lim acc.length = false) :
    scanChecks lim ((rs.zipIdx k).map (fun ri => (func ri.1).map (fun x => (toFail x ri.2).map (fun e => (key, e)))) ++ rest)
        acc =
      match applyTrip func bad good lim rs acc.length with
      | none => none
      | some (xs, n') =>
        let acc' := (((xs.zipIdx k).filterMap (fun xi => toFail xi.1 xi.2)).map (fun e => (key, e))).reverse ++ acc
        if tripsEnd lim n' then some acc' else scanChecks lim rest acc' := by
  have hgood : ∀ (xs : List R) (k : Nat), ((xs.map (fun _ => good)).zipIdx k).filterMap (fun xi => toFail xi.1 xi.2) = [] := by
    intro xs
    induction xs with
    | nil => intro k; rfl
    | cons x xs ih =>
      intro k
      have : toFail good k = none := by
        have := hb good k; rw [hg] at this
        cases h : toFail good k with
        | none => rfl
        | some _ => rw [h] at this; simp at this
      simp only [List.map_cons, List.zipIdx_cons, List.filterMap_cons, this, ih]
  induction rs generalizing k acc with
  | nil => simp [applyTrip, hacc]
  | cons r rs ih =>
    simp only [List.zipIdx_cons, List.map_cons, List.cons_append]
    rw [applyTrip]
    cases hf : func r with
    | none => simp [scanChecks]
    | some x =>
      simp only [Option.map_some]
      cases hbx : bad x with
      | false =>
        have ht : toFail x k = none := by
          have := hb x k; rw [hbx] at this
          cases h : toFail x k with
          | none => rfl
          | some _ => rw [h] at this; simp at this
        rw [ht]
        simp only [Option.map_none, scanChecks, Bool.false_eq_true, if_false]
        rw [ih (k + 1) acc hacc]
        cases applyTrip func bad good lim rs acc.length with
        | none => rfl
        | some q => obtain ⟨xs, n'⟩ := q; simp [List.zipIdx_cons, ht]
      | true =>
        obtain ⟨e, ht⟩ := Option.isSome_iff_exists.1 ((hb x k).trans hbx)
        rw [ht]
        simp only [Option.map_some, scanChecks, if_true]
        cases htr : tripsEnd lim (acc.length + 1) with
        | true => simp [List.zipIdx_cons, ht, hgood, htr]
        | false =>
          simp only [Bool.false_eq_true, if_false]
          rw [ih (k + 1) ((key, e) :: acc) (by simpa using htr)]
          simp only [List.length_cons]
          cases applyTrip func bad good lim rs (acc.length + 1) with
          | none => rfl
          | some q => obtain ⟨xs, n'⟩ := q; simp [List.zipIdx_cons, ht]

theorem applyTrip_count {R X F : Type} (func : R → Option X) (bad : X → Bool) (good : X) (toFail : X → Nat → Option F)
    (hb : ∀ x i, (toFail x i).isSome = bad x) (hg : bad good = false) (lim : Option Nat) (rs : List R) (k n : Nat)
    (xs : List X) (n' : Nat) (h : applyTrip func bad good lim rs n = some (xs, n')) :
    n' = n + ((xs.zipIdx k).filterMap (fun xi => toFail xi.1 xi.2)).length := by
  have hgood : ∀ (xs : List R) (k : Nat), ((xs.map (fun _ => good)).zipIdx k).filterMap (fun xi => toFail xi.1 xi.2) = [] := by
    intro xs
    induction xs with
    | nil => intro k; rfl
    | cons x xs ih =>
      intro k
      have : toFail good k = none := by
        have := hb good k; rw [hg] at this
        cases h : toFail good k with
        | none => rfl
        | some _ => rw [h] at this; simp at this
      simp only [List.map_cons, List.zipIdx_cons, List.filterMap_cons, this, ih]
  induction rs generalizing k n xs n' with
  | nil => simp [applyTrip] at h; obtain ⟨rfl, rfl⟩ := h; simp
  | cons r rs ih =>
    rw [applyTrip] at h
    cases hf : func r with
    | none => rw [hf] at h; simp at h
    | some x =>
      rw [hf] at h
      simp only at h
      cases hbx : bad x with
      | false =>
        have ht : toFail x k = none := by
          have := hb x k; rw [hbx] at this
          cases h : toFail x k with
          | none => rfl
          | some _ => rw [h] at this; simp at this
        rw [hbx] at h
        simp only [Bool.false_eq_true, if_false, Option.map_eq_some_iff] at h
        obtain ⟨⟨ys, m⟩, h1, h2⟩ := h
        simp at h2; obtain ⟨rfl, rfl⟩ := h2
        have := ih (k + 1) n ys m h1
        simp [List.zipIdx_cons, ht, this]
      | true =>
        obtain ⟨e, ht⟩ := Option.isSome_iff_exists.1 ((hb x k).trans hbx)
        rw [hbx] at h
        simp only [if_true] at h
        split at h
        · simp at h; obtain ⟨rfl, rfl⟩ := h
          simp [List.zipIdx_cons, ht, hgood]
        · simp only [Option.map_eq_some_iff] at h
          obtain ⟨⟨ys, m⟩, h1, h2⟩ := h
          simp at h2; obtain ⟨rfl, rfl⟩ := h2
          have := ih (k + 1) (n + 1) ys m h1
          simp [List.zipIdx_cons, ht, this]; omega

/-- The rows of a `DataFrame` with their positions. -/
def positions (rowsOf : String → List (Rec V)) (t : String) : List (Nat × Rec V) :=
  ((rowsOf t).zipIdx).map (fun ri => (ri.2, ri.1))

theorem positions_failures_nodup {X : Type} (f : X → Nat → Option (RowFail Nat)) (hf : ∀ x i e, f x i = some e → ∃ m, e = .row i m)
    (xs : List X) (k : Nat) : ((xs.zipIdx k).filterMap (fun xi => f xi.1 xi.2)).Nodup := by
  have := nodup_filterMap_key (xs.zipIdx k) (fun xi => f xi.1 xi.2) (fun xi => some xi.2) (fun y => match y with
          | RowFail.row pk _ => some pk
          | .star _ => none) (by
    intro a _ b hb
    obtain ⟨m, rfl⟩ := hf _ _ _ hb
    rfl) (by
    have : (xs.zipIdx k).map (fun xi => some xi.2) = ((xs.zipIdx k).map Prod.snd).map some := by
      rw [List.map_map]; rfl
    rw [this, List.zipIdx_map_snd, List.Nodup, List.pairwise_map]
    have := List.nodup_range' (s := k) (n := xs.length) (step := 1)
    exact this.imp (fun h e => h (Option.some.inj e)))
  rw [List.Nodup, List.pairwise_map] at this
  exact this.imp (fun h e => h (by rw [e]))

/-- One predicate: the pandas loop and the scan do the same. -/
theorem panBadRows_scan (handled : Bool) (key : String × PName) (p : RowPred V K) (kw : Option K) (lim : Option Nat)
    (rowsOf : String → List (Rec V)) (rest : List (Option (Option ((String × PName) × RowFail Nat))))
    (acc : List ((String × PName) × RowFail Nat)) (hacc : tripsEnd lim acc.length = false) :
    scanChecks lim ((positions rowsOf key.1).map (fun r => rowCheck handled key p kw r.1 r.2) ++ rest) acc =
      (match panBadRows handled p kw lim (rowsOf key.1) acc.length with
      | none => none
      | some (bad, n') =>
        let acc' := (bad.map (fun e => (key, e))).reverse ++ acc
        if tripsEnd lim n' then some acc' else scanChecks lim rest acc') ∧
    ∀ bad n', panBadRows handled p kw lim (rowsOf key.1) acc.length = some (bad, n') →
      n' = acc.length + bad.length ∧ bad.Nodup := by
  unfold positions
  rw [List.map_map]
  unfold panBadRows
  cases hm : p.message with
  | true =>
    simp only [if_true]
    let toFail : PVal → Nat → Option (RowFail Nat) := fun v i => match v with
        | .tru => none
        | .obj _ text => some (.row i (some text))
    have hb : ∀ x i, (toFail x i).isSome = decide (x ≠ PVal.tru) := by
      intro x i; cases x <;> simp [toFail]
    have h1 := scan_applyTrip (fun r => callPred handled p kw r) (fun v => decide (v ≠ PVal.tru)) .tru toFail hb (by simp) key
      lim rest (rowsOf key.1) 0 acc hacc
    have hfun : ((fun r : Nat × Rec V => rowCheck handled key p kw r.1 r.2) ∘ fun ri : Rec V × Nat => (ri.2, ri.1)) =
        (fun ri => (callPred handled p kw ri.1).map (fun x => (toFail x ri.2).map (fun e => (key, e)))) := by
      funext ri
      simp only [Function.comp, rowCheck, hm, if_true]
      cases callPred handled p kw ri.1 with
      | none => rfl
      | some v => cases v <;> rfl
    rw [hfun, h1]
    constructor
    · cases applyTrip (fun r => callPred handled p kw r) (fun v => decide (v ≠ PVal.tru)) .tru lim (rowsOf key.1) acc.length with
      | none => rfl
      | some q => rfl
    · intro bad n' he
      simp only [Option.map_eq_some_iff] at he
      obtain ⟨⟨xs, m⟩, ha, he⟩ := he
      simp at he
      obtain ⟨rfl, rfl⟩ := he
      refine ⟨applyTrip_count _ _ _ toFail hb (by simp) lim _ 0 _ _ _ ha, ?_⟩
      apply positions_failures_nodup toFail
      intro x i e h
      cases x with
      | tru => simp [toFail] at h
      | obj b text => simp [toFail] at h; exact ⟨_, h.symm⟩
  | false =>
    simp only [Bool.false_eq_true, if_false]
    let toFail : Bool → Nat → Option (RowFail Nat) := fun b i => if b then some (.row i none) else none
    have hb : ∀ x i, (toFail x i).isSome = x := by
      intro x i; cases x <;> simp [toFail]
    have h1 := scan_applyTrip (fun r => (callPred handled p kw r).map (fun v => !v.truthy)) (fun b => b) false toFail hb rfl key
      lim rest (rowsOf key.1) 0 acc hacc
    have hfun : ((fun r : Nat × Rec V => rowCheck handled key p kw r.1 r.2) ∘ fun ri : Rec V × Nat => (ri.2, ri.1)) =
        (fun ri => ((callPred handled p kw ri.1).map (fun v => !v.truthy)).map
          (fun x => (toFail x ri.2).map (fun e => (key, e)))) := by
      funext ri
      simp only [Function.comp, rowCheck, hm, Bool.false_eq_true, if_false]
      cases callPred handled p kw ri.1 with
      | none => rfl
      | some v => cases h : v.truthy <;> simp [toFail, h]
    rw [hfun, h1]
    constructor
    · cases applyTrip (fun r => (callPred handled p kw r).map (fun v => !v.truthy)) (fun b => b) false lim (rowsOf key.1)
        acc.length with
      | none => rfl
      | some q => rfl
    · intro bad n' he
      simp only [Option.map_eq_some_iff] at he
      obtain ⟨⟨xs, m⟩, ha, he⟩ := he
      simp at he
      obtain ⟨rfl, rfl⟩ := he
      refine ⟨applyTrip_count _ _ _ toFail hb rfl lim _ 0 _ _ _ ha, ?_⟩
      apply positions_failures_nodup toFail
      intro x i e h
      cases x with
      | false => simp [toFail] at h
      | true => simp [toFail] at h; exact ⟨_, h.symm⟩

theorem panLoop_scan (handled : Bool) (env : PredEnv K D) (lim : Option Nat) (rowsOf : String → List (Rec V))
    (ps : List ((String × PName) × RowPred V K)) (hnd : (ps.map Prod.fst).Nodup) (memo : Memo K)
    (acc : List ((String × PName) × RowFail Nat)) (hacc : tripsEnd lim acc.length = false)
    (hdis : ∀ p ∈ ps, ∀ x, (p.1, x) ∉ acc) :
    panLoop handled env lim rowsOf ps memo acc.length (groupBy (fun a b => decide (a = b)) acc.reverse) =
      (scanChecks lim (rowChecks handled env (positions rowsOf) ps memo) acc).map
        (fun evs => groupBy (fun a b => decide (a = b)) evs.reverse) := by
  induction ps generalizing memo acc with
  | nil => simp [panLoop, rowChecks, scanChecks]
  | cons p ps ih =>
    rw [panLoop, rowChecks]
    cases hk : kwargsStep handled env memo p with
    | none => simp [scanChecks]
    | some q =>
      obtain ⟨kw, memo'⟩ := q
      simp only
      have key : ∀ (res : Option (List (RowFail Nat) × Nat)) (cs : List (Option (Option ((String × PName) × RowFail Nat)))),
          (scanChecks lim (cs ++ rowChecks handled env (positions rowsOf) ps memo') acc =
            (match res with
            | none => none
            | some (bad, n') =>
              let acc' := (bad.map (fun e => (p.1, e))).reverse ++ acc
              if tripsEnd lim n' then some acc' else scanChecks lim (rowChecks handled env (positions rowsOf) ps memo') acc') ∧
          ∀ bad n', res = some (bad, n') → n' = acc.length + bad.length ∧ bad.Nodup) →
          (match res with
            | none => none
            | some (bad, n') =>
              let rtn' := if bad = [] then (groupBy (fun a b => decide (a = b)) acc.reverse)
                else (groupBy (fun a b => decide (a = b)) acc.reverse).set p.1 bad
              if tripsEnd lim n' then some rtn' else panLoop handled env lim rowsOf ps memo' n' rtn') =
            (scanChecks lim (cs ++ rowChecks handled env (positions rowsOf) ps memo') acc).map
              (fun evs => groupBy (fun a b => decide (a = b)) evs.reverse) := by
        rintro res cs ⟨h1, h2⟩
        rw [h1]
        cases res with
        | none => rfl
        | some q =>
          obtain ⟨bad, n'⟩ := q
          obtain ⟨hn', hbn⟩ := h2 bad n' rfl
          simp only
          have hgrp : groupBy (fun a b => decide (a = b)) ((bad.map (fun e => (p.1, e))).reverse ++ acc).reverse =
              if bad = [] then (groupBy (fun a b => decide (a = b)) acc.reverse)
                else (groupBy (fun a b => decide (a = b)) acc.reverse).set p.1 bad := by
            rw [List.reverse_append, List.reverse_reverse]
            exact groupBy_append_block acc.reverse p.1 bad
              (fun a ha => hdis p List.mem_cons_self a (by simpa using ha)) hbn
          have hlen : ((bad.map (fun e => (p.1, e))).reverse ++ acc).length = n' := by
            rw [hn']; simp; omega
          cases ht : tripsEnd lim n' with
          | true => simp [← hgrp]
          | false =>
            simp only [Bool.false_eq_true, if_false]
            rw [← hgrp, ← hlen]
            simp only [List.map_cons, List.nodup_cons] at hnd
            apply ih hnd.2 memo' _ (by rw [hlen]; exact ht)
            intro q hq x hx
            rcases List.mem_append.1 hx with hx | hx
            · simp only [List.mem_reverse, List.mem_map, Prod.mk.injEq] at hx
              obtain ⟨_, _, e, _⟩ := hx
              exact hnd.1 (by rw [e]; exact List.mem_map.2 ⟨q, hq, rfl⟩)
            · exact hdis q (List.mem_cons_of_mem _ hq) x hx
      cases kw with
      | none => exact key _ _ (panBadRows_scan handled p.1 p.2 none lim rowsOf _ acc hacc)
      | some kv =>
        cases kv with
        | dict k => exact key _ _ (panBadRows_scan handled p.1 p.2 (some k) lim rowsOf _ acc hacc)
        | str st =>
          apply key (some ([RowFail.star (bulkMessage (K := K) (.str st))], acc.length + 1)) [some (some (p.1, .star (bulkMessage (K := K) (.str st))))]
          refine ⟨?_, ?_⟩
          · simp [scanChecks]
          · intro bad n' h; simp at h; obtain ⟨rfl, rfl⟩ := h; simp
        | other =>
          apply key (some ([RowFail.star (bulkMessage (K := K) .other)], acc.length + 1)) [some (some (p.1, .star (bulkMessage (K := K) .other)))]
          refine ⟨?_, ?_⟩
          · simp [scanChecks]
          · intro bad n' h; simp at h; obtain ⟨rfl, rfl⟩ := h; simp

/-- **C15, PanDat.**  On the same predicates and rows, the pandas version (trip wire and all) returns the same dictionary
as the dict version whose rows are addressed by position: same predicates, same rows, same messages, same truncation at
`max_failures`, same exceptions. -/
theorem pan_rows_same_as_tic {handled : Bool} {env : PredEnv K D} (preds : List ((String × PName) × RowPred V K))
    (hnd : (preds.map Prod.fst).Nodup) (rowsOf : String → List (Rec V)) (lim : Option Nat) (hl : lim ≠ some 0) :
    panRowFailures handled env preds rowsOf lim =
      (scanChecks lim (rowChecks handled env (positions rowsOf) preds []) []).map
        (fun evs => groupBy (fun a b => decide (a = b)) evs.reverse) := by
  have := panLoop_scan handled env lim rowsOf preds hnd [] [] (by
    cases lim with
    | none => rfl
    | some n => simp [tripsEnd]; intro h; exact hl (by rw [h])) (by simp)
  exact this

/-- **C15, PanDat exactness.**  The positions reported for a predicate are exactly those of the rejected rows, or a bulk
entry when the keyword arguments cannot be made. -/
theorem pan_find_rows_exact {handled : Bool} {env : PredEnv K D} {preds : List ((String × PName) × RowPred V K)}
    (hnd : (preds.map Prod.fst).Nodup) (hag : MakersAgree env preds) (rowsOf : String → List (Rec V))
    (h : handled = true ∨ NoRaise env (positions rowsOf) preds) :
    ∃ d, panRowFailures handled env preds rowsOf none = some d ∧ (PyDict.keys d).Nodup ∧
      (∀ key, key ∈ PyDict.keys d ↔ ∃ p, (key, p) ∈ preds ∧ ∃ x, Entry env (positions rowsOf key.1) key p x) ∧
      (∀ key p vs, (key, p) ∈ preds → d.get? key = some vs →
        ∀ x, x ∈ vs ↔ Entry env (positions rowsOf key.1) key p x) := by
  obtain ⟨h1, h2⟩ := rowChecks_spec hag h
  have hgi := groupBy_inv eqvB_eq (rowEvents handled env (positions rowsOf) preds)
  refine ⟨_, ?_, hgi.nodup, ?_, ?_⟩
  · rw [pan_rows_same_as_tic preds hnd rowsOf none (by simp), scanChecks_eq none (by simp) _ h1]
    simp [takeLim, rowEvents]
  · intro key
    rw [hgi.mem_keys]
    constructor
    · rintro ⟨x, hx⟩
      obtain ⟨p, hpm, hE⟩ := (h2 key x).1 hx
      exact ⟨p, hpm, x, hE⟩
    · rintro ⟨p, hpm, x, hE⟩
      exact ⟨x, (h2 key x).2 ⟨p, hpm, hE⟩⟩
  · intro key p vs hpm hg x
    constructor
    · intro hx
      obtain ⟨p', hpm', hE⟩ := (h2 key x).1 (hgi.sound key vs hg x hx)
      have : p' = p := by
        have e1 := PyDict.get?_of_mem (d := preds) hnd hpm
        have e2 := PyDict.get?_of_mem (d := preds) hnd hpm'
        rw [e1] at e2; exact (Option.some.inj e2).symm
      rw [← this]; exact hE
    · intro hE
      obtain ⟨b, hb, e⟩ := hgi.complete key vs hg x ((h2 key x).2 ⟨p, hpm, hE⟩)
      simp at e; rw [e]; exact hb

end Ticdat
