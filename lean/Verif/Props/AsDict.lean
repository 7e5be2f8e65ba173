import Verif.Spec.AsDict
import Verif.Props.Good
/-!
# C73: `as_dict`
-/
set_option linter.unusedSimpArgs false
namespace Ticdat
open Spec

theorem initRow_self (c : TabClass) (hn : c.dfs.Nodup) (row : RowVal) (h : PyDict.keys row = c.dfs) :
    initRow c (.dict row) = some row := by
  have hd : DictRow (.dict row) := by
    show (PyDict.keys row).Nodup
    rw [h]; exact hn
  refine (initRow_iff c hn (.dict row) hd row).mpr ⟨fun f hf => h ▸ hf, (filledRow_full c row hn h).symm⟩

theorem ofList_nodup {K V : Type} [DecidableEq K] (l : List (K × V)) (h : (l.map Prod.fst).Nodup) : PyDict.ofList l = l := by
  exact PyDict.ofList_of_nodup l h

theorem init_of_shape (c : TabClass) (hn : (c.pks ++ c.dfs).Nodup) (v : TabVal) (hv : WellShaped c v) (td : Frame → AttrVal) :
    ∃ x, asDictTable td (.plain c) (.tab v) = some (.tab x) ∧ initTable c x = some v ∧ x.size = v.size := by
  have hdn : c.dfs.Nodup := (List.nodup_append.mp hn).2.1
  cases v with
  | keyed d =>
    obtain ⟨hp, hk, hr⟩ := hv
    refine ⟨.dict (d.map (fun p => (p.1, .dict p.2))), by simp [asDictTable, hp], ?_, by simp [TableIn.size, TabVal.size]⟩
    have hkeys : PyDict.keys (d.map (fun p => (p.1, RowIn.dict p.2))) = PyDict.keys d := by
      simp [PyDict.keys, List.map_map, Function.comp_def]
    have hkl : ∀ k ∈ PyDict.keys d, keyLen k = c.pks.length := by
      intro k hkm
      obtain ⟨p, hpd, rfl⟩ := List.mem_map.mp hkm
      exact keyShape_len (hr p hpd).1
    have hg : goodTableForInit c (.dict (d.map (fun p => (p.1, RowIn.dict p.2)))) = true := by
      simp only [goodTableForInit, hp, ne_eq, not_false_eq_true, if_true]
      rw [Bool.or_eq_true, Bool.and_eq_true]
      refine .inr ⟨?_, ?_⟩
      · rw [hkeys, List.all_eq_true]
        intro k hkm
        exact decide_eq_true (hkl k hkm)
      · rw [List.all_eq_true]
        intro q hq
        obtain ⟨p, hpd, rfl⟩ := List.mem_map.mp hq
        simp only [goodRow, List.all_eq_true, decide_eq_true_eq]
        intro f hf
        rw [← (hr p hpd).2]; exact hf
    have hver : (PyDict.keys (d.map (fun p => (p.1, RowIn.dict p.2)))).all (keyVerify c.pks.length) = true := by
      rw [hkeys, List.all_eq_true]
      intro k hkm
      exact keyVerify_of_len (hkl k hkm) (fun e => hp (List.length_eq_zero_iff.mp e))
    have hm : (d.map (fun p => (p.1, RowIn.dict p.2))).mapM (fun p => (initRow c p.2).map (fun row => (p.1, row))) = some d := by
      rw [mapM_eq_some_iff, List.map_map]
      conv => rhs; rw [← List.map_id d]
      rw [List.map_map]
      apply List.map_congr_left
      intro p hpd
      simp [initRow_self c hdn p.2 (hr p hpd).2]
    unfold initTable
    rw [if_pos hg, if_pos hp]
    simp only [hver, if_true, hm, Option.map_some, Option.some.injEq, TabVal.keyed.injEq]
    exact ofList_nodup d hk
  | plain rows =>
    obtain ⟨hp, hr⟩ := hv
    refine ⟨.seq (rows.map .dict), by simp [asDictTable, hp], ?_, by simp [TableIn.size, TabVal.size]⟩
    have hg : goodTableForInit c (.seq (rows.map .dict)) = true := by
      simp only [goodTableForInit, hp, ne_eq, not_true_eq_false, if_false, List.all_eq_true]
      intro q hq
      obtain ⟨p, hpd, rfl⟩ := List.mem_map.mp hq
      simp only [goodRow, List.all_eq_true, decide_eq_true_eq]
      intro f hf
      rw [← hr p hpd]; exact hf
    have hm : (rows.map RowIn.dict).mapM (initRow c) = some rows := by
      rw [mapM_eq_some_iff, List.map_map]
      apply List.map_congr_left
      intro p hpd
      simp [initRow_self c hdn p (hr p hpd)]
    unfold initTable
    rw [if_pos hg]
    simp [hp, hm]

theorem get?_map_second {K V W : Type} [DecidableEq K] (g : V → W) (d : PyDict K V) (k : K) :
    PyDict.get? (d.map (fun p => (p.1, g p.2)) : PyDict K W) k = (PyDict.get? d k).map g := by
  induction d with
  | nil => rfl
  | cons p d ih =>
    simp only [List.map_cons, PyDict.get?]
    split
    · rfl
    · exact ih

theorem dictOf_table (td : Frame → AttrVal) (k : TabKind) (v : OutTab) (a : AttrVal) (h : asDictTable td k v = some a) : DictOf td v a := by
  cases k with
  | generic => cases v with
    | frame v => cases h; rfl
    | tab v => cases v <;> cases h
    | gen c rows => cases h
  | generator c => cases v with
    | tab v => cases v <;> cases h
    | frame v => cases h
    | gen c rows => cases h
  | plain c => cases v with
    | frame v => cases h
    | gen c rows => cases h
    | tab v =>
      cases v with
      | keyed d =>
        simp only [asDictTable] at h
        split at h
        · cases h
          refine ⟨_, rfl, by simp [PyDict.keys, List.map_map, Function.comp_def], fun k row hk => ?_⟩
          rw [get?_map_second, hk]
          rfl
        · cases h
      | plain rows =>
        simp only [asDictTable] at h
        split at h
        · cases h
        · cases h; rfl

/-- **C73, what the dictionary holds.**  `as_dict` works for every object of a schema without generator tables: the
dictionary has an entry for each table and no others, a table with primary key is there as a dictionary from the keys to
dictionaries of the data fields, a table without as a list of dictionaries. -/
theorem as_dict_contents (td : Frame → AttrVal) (kinds : List (String × TabKind)) (hs : (kinds.map Prod.fst).Nodup)
    (hg : ∀ tk ∈ kinds, tk.2.isGenerator = false) (obj : PyDict String OutTab) (ho : DatShape kinds obj) :
    ∃ d, asDict td kinds obj = some d ∧ PyDict.keys d = kinds.map Prod.fst ∧
      ∀ tk ∈ kinds, ∃ v a, PyDict.get? obj tk.1 = some v ∧ PyDict.get? d tk.1 = some a ∧ DictOf td v a := by
  have hone : ∀ tk ∈ kinds, ∃ v a, PyDict.get? obj tk.1 = some v ∧ asDictTable td tk.2 v = some a := by
    intro tk htk
    have hmem : tk.1 ∈ PyDict.keys obj := by rw [ho.1]; exact List.mem_map.mpr ⟨tk, htk, rfl⟩
    obtain ⟨v, hv⟩ := Option.isSome_iff_exists.mp ((PyDict.has_iff obj tk.1).mpr hmem)
    have hsh := ho.2 tk htk v hv
    have hgk := hg tk htk
    refine ⟨v, ?_⟩
    obtain ⟨t, k⟩ := tk
    cases k with
    | generator c => cases hgk
    | generic => cases v with
      | frame v => exact ⟨_, hv, rfl⟩
      | tab v => exact hsh.elim
      | gen c rows => exact hsh.elim
    | plain c => cases v with
      | frame v => exact hsh.elim
      | gen c rows => exact hsh.elim
      | tab v => cases v with
        | keyed d => exact ⟨_, hv, by simp only [asDictTable]; rw [if_pos hsh.1]⟩
        | plain rows => exact ⟨_, hv, by simp only [asDictTable]; rw [if_neg (fun hne => hne hsh.1)]⟩
  obtain ⟨d, hd⟩ := mapM_some_of_forall
    (fun tk : String × TabKind => ((PyDict.get? obj tk.1).bind (asDictTable td tk.2)).map (fun a => (tk.1, a))) kinds (by
      intro tk htk
      obtain ⟨v, a, h1, h2⟩ := hone tk htk
      simp [h1, h2])
  have hng : kinds.any (fun tk => tk.2.isGenerator) = false := by
    rw [List.any_eq_false]
    intro tk htk
    simp [hg tk htk]
  have hd' := (mapM_eq_some_iff _ _ _).mp hd
  have hkeys : PyDict.keys d = kinds.map Prod.fst := by
    have := congrArg (List.map (fun o : Option (String × AttrVal) => (o.map Prod.fst).getD "")) hd'
    rw [List.map_map, List.map_map] at this
    rw [PyDict.keys]
    refine Eq.trans ?_ (this.symm.trans ?_)
    · exact List.map_congr_left (fun _ _ => rfl)
    · refine List.map_congr_left (fun tk htk => ?_)
      obtain ⟨v, a, h1, h2⟩ := hone tk htk
      simp [h1, h2]
  refine ⟨d, by unfold asDict; rw [hng]; exact hd, hkeys, fun tk htk => ?_⟩
  obtain ⟨v, a, h1, h2⟩ := hone tk htk
  refine ⟨v, a, h1, ?_, dictOf_table td tk.2 v a h2⟩
  refine PyDict.get?_of_mem (by rw [hkeys]; exact hs) ?_
  have hmm : some (tk.1, a) ∈ d.map some := by
    rw [← hd']
    exact List.mem_map.mpr ⟨tk, htk, by simp [h1, h2]⟩
  obtain ⟨q, hq, e⟩ := List.mem_map.mp hmm
  cases e
  exact hq

theorem map_by_keys {A V : Type} (obj : PyDict String V) (kinds : List (String × A)) (hs : (kinds.map Prod.fst).Nodup)
    (hk : PyDict.keys obj = kinds.map Prod.fst) (f : String × A → Option (String × V))
    (hf : ∀ tk ∈ kinds, ∀ v, PyDict.get? obj tk.1 = some v → f tk = some (tk.1, v)) : kinds.map f = obj.map some := by
  have hlen : obj.length = kinds.length := by
    have := congrArg List.length hk
    simpa [PyDict.keys] using this
  refine List.ext_getElem (by simp [hlen]) (fun i h1 h2 => ?_)
  have hi : i < kinds.length := by simpa using h1
  have hi' : i < obj.length := by omega
  rw [List.getElem_map, List.getElem_map]
  have hfst : obj[i].1 = kinds[i].1 := by
    have : (PyDict.keys obj)[i]'(by simpa [PyDict.keys] using hi') = (kinds.map Prod.fst)[i]'(by simpa using hi) := by
      simp only [hk]
    simpa [PyDict.keys] using this
  have hg : PyDict.get? obj kinds[i].1 = some obj[i].2 := by
    refine PyDict.get?_of_mem (by rw [hk]; exact hs) ?_
    rw [← hfst]
    exact List.getElem_mem hi'
  rw [hf _ (List.getElem_mem hi) _ hg, ← hfst]

/-- **C73, pickling.**  Passing the dictionary of `as_dict` to the constructor gives the object back: the same tables with
the same keys, rows, fields and cells in the same order, under every policy for duplicates.  Generic tables have to be
DataFrames that come back from their `to_dict`. -/
theorem as_dict_round_trip (mk : AttrVal → Option Frame) (td : Frame → AttrVal) (policy : DupPolicy)
    (kinds : List (String × TabKind)) (hs : (kinds.map Prod.fst).Nodup) (hk : ∀ tk ∈ kinds, KindOK tk.2)
    (hg : ∀ tk ∈ kinds, tk.2.isGenerator = false) (obj : PyDict String OutTab) (ho : DatShape kinds obj)
    (hf : ∀ tk ∈ kinds, ∀ v, PyDict.get? obj tk.1 = some (.frame v) → FrameComesBack mk td policy v) :
    ∃ d, asDict td kinds obj = some d ∧ initKinds mk policy kinds d = some obj := by
  have hone : ∀ tk ∈ kinds, ∀ v, PyDict.get? obj tk.1 = some v → ∃ a, asDictTable td tk.2 v = some a ∧
      initAttr mk tk.2 a = some v ∧ (policy = .assert → ∀ n, a.len = some n → n ≤ v.len.getD 0) := by
    intro tk htk v hv
    have hsh := ho.2 tk htk v hv
    have hgk := hg tk htk
    have hkk := hk tk htk
    have hff := hf tk htk
    obtain ⟨t, k⟩ := tk
    cases k with
    | generator c => cases hgk
    | generic => cases v with
      | frame v =>
        obtain ⟨h1, h2⟩ := hff v hv
        exact ⟨td v, rfl, by simp [initAttr, h1], h2⟩
      | tab v => exact hsh.elim
      | gen c rows => exact hsh.elim
    | plain c => cases v with
      | frame v => exact hsh.elim
      | gen c rows => exact hsh.elim
      | tab v =>
        obtain ⟨x, h1, h2, h3⟩ := init_of_shape c hkk.1 v hsh td
        refine ⟨.tab x, h1, by simp [initAttr, h2], fun _ n hn => ?_⟩
        cases hn
        simp [OutTab.len, h3]
  obtain ⟨d, hd, hkeys, hcont⟩ := as_dict_contents td kinds hs hg obj ho
  have hent : ∀ tk ∈ kinds, ∀ v, PyDict.get? obj tk.1 = some v → ∃ a, PyDict.get? d tk.1 = some a ∧
      initAttr mk tk.2 a = some v ∧ (policy = .assert → ∀ n, a.len = some n → n ≤ v.len.getD 0) := by
    intro tk htk v hv
    obtain ⟨a, h1, h2, h3⟩ := hone tk htk v hv
    refine ⟨a, ?_, h2, h3⟩
    have hng : kinds.any (fun tk => tk.2.isGenerator) = false := by
      rw [List.any_eq_false]
      intro tk htk
      simp [hg tk htk]
    unfold asDict at hd
    rw [hng] at hd
    have hd' := (mapM_eq_some_iff _ _ _).mp hd
    refine PyDict.get?_of_mem (by rw [hkeys]; exact hs) ?_
    have hmm : some (tk.1, a) ∈ d.map some := by
      rw [← hd']
      exact List.mem_map.mpr ⟨tk, htk, by simp [hv, h1]⟩
    obtain ⟨q, hq, e⟩ := List.mem_map.mp hmm
    cases e
    exact hq
  refine ⟨d, hd, ?_⟩
  have hall : d.all (fun p => decide (p.1 ∈ kinds.map Prod.fst)) = true := by
    rw [List.all_eq_true]
    intro p hp
    rw [decide_eq_true_eq, ← hkeys]
    exact List.mem_map.mpr ⟨p, hp, rfl⟩
  have hm : kinds.mapM (initKindEntry mk d) = some obj := by
    rw [mapM_eq_some_iff]
    refine map_by_keys obj kinds hs ho.1 _ (fun tk htk v hv => ?_)
    obtain ⟨a, h1, h2, _⟩ := hent tk htk v hv
    simp [initKindEntry, h1, h2]
  unfold initKinds
  rw [if_pos hall]
  simp only [hm]
  rw [if_neg]
  intro h
  rw [Bool.and_eq_true, decide_eq_true_eq, List.any_eq_true] at h
  obtain ⟨hpol, p, hp, hl⟩ := h
  have hpk : p.1 ∈ kinds.map Prod.fst := by rw [← hkeys]; exact List.mem_map.mpr ⟨p, hp, rfl⟩
  obtain ⟨tk, htk, e⟩ := List.mem_map.mp hpk
  have hpg := PyDict.get?_of_mem (d := d) (by rw [hkeys]; exact hs) (show (p.1, p.2) ∈ d from hp)
  have hobj : tk.1 ∈ PyDict.keys obj := by rw [ho.1]; exact List.mem_map.mpr ⟨tk, htk, rfl⟩
  obtain ⟨v, hv⟩ := Option.isSome_iff_exists.mp ((PyDict.has_iff obj tk.1).mpr hobj)
  obtain ⟨a, h1, _, h3⟩ := hent tk htk v hv
  rw [e, hpg] at h1
  cases h1
  unfold lostRows at hl
  rw [← e, hv] at hl
  cases hn : p.2.len with
  | none => simp [hn] at hl
  | some n =>
    have := h3 hpol n hn
    simp [hn] at hl
    omega

/-- **C73, generator tables.**  `as_dict` raises for every object of a schema with a generator table. -/
theorem as_dict_generators (td : Frame → AttrVal) (kinds : List (String × TabKind)) (obj : PyDict String OutTab)
    (tk : String × TabKind) (htk : tk ∈ kinds) (h : tk.2.isGenerator = true) : asDict td kinds obj = none := by
  unfold asDict
  rw [if_pos (List.any_eq_true.mpr ⟨tk, htk, h⟩)]

/-- Finding: an object that has a generic table with more columns than rows does not come back under the default policy
for duplicates, whatever `to_dict` and `DataFrame` do with the cells: the dictionary of `to_dict` has an entry for every
column, the constructor counts them as rows and raises. -/
theorem as_dict_wide_generic (mk : AttrVal → Option Frame) (td : Frame → AttrVal) (kinds : List (String × TabKind))
    (hs : (kinds.map Prod.fst).Nodup) (hg : ∀ tk ∈ kinds, tk.2.isGenerator = false) (obj : PyDict String OutTab)
    (ho : DatShape kinds obj) (t : String) (ht : (t, TabKind.generic) ∈ kinds) (v : Frame)
    (hv : PyDict.get? obj t = some (.frame v)) (hlen : (td v).len = some v.cols.length)
    (hmk : ∀ v', mk (td v) = some v' → v'.rows.length = v.rows.length) (hwide : v.rows.length < v.cols.length) :
    ∃ d, asDict td kinds obj = some d ∧ initKinds mk .assert kinds d = none := by
  obtain ⟨d, hd, hkeys, hcont⟩ := as_dict_contents td kinds hs hg obj ho
  refine ⟨d, hd, ?_⟩
  obtain ⟨v', a, h1, h2, h3⟩ := hcont _ ht
  rw [hv] at h1
  cases h1
  cases h3
  unfold initKinds
  split
  · split
    · rfl
    · rename_i tabs htabs
      rw [if_pos]
      have hm := (mapM_eq_some_iff _ _ _).mp htabs
      have hmem : initKindEntry mk d (t, .generic) ∈ tabs.map some := by
        rw [← hm]; exact List.mem_map.mpr ⟨_, ht, rfl⟩
      obtain ⟨q, hq, e⟩ := List.mem_map.mp hmem
      simp only [initKindEntry, h2, initAttr, Option.map_map] at e
      cases hmv : mk (td v) with
      | none => rw [hmv] at e; cases e
      | some v' =>
        rw [hmv] at e
        cases e
        have hkn : (PyDict.keys tabs).Nodup := by
          have : PyDict.keys tabs = kinds.map Prod.fst := by
            have := congrArg (List.map (fun o : Option (String × OutTab) => (o.map Prod.fst).getD "")) hm
            rw [List.map_map, List.map_map] at this
            rw [PyDict.keys]
            refine Eq.trans ?_ (this.symm.trans ?_)
            · exact List.map_congr_left (fun _ _ => rfl)
            · refine List.map_congr_left (fun tk htk => ?_)
              have : initKindEntry mk d tk ∈ tabs.map some := by rw [← hm]; exact List.mem_map.mpr ⟨_, htk, rfl⟩
              obtain ⟨q, _, e⟩ := List.mem_map.mp this
              have hfst : ∀ q, initKindEntry mk d tk = some q → q.1 = tk.1 := by
                intro q hq
                unfold initKindEntry at hq
                split at hq
                · cases hq; rfl
                · rw [Option.map_eq_some_iff] at hq
                  obtain ⟨_, _, rfl⟩ := hq
                  rfl
              simp only [Function.comp, ← e, Option.map_some, Option.getD_some]
              exact hfst q e.symm
          rw [this]; exact hs
        rw [Bool.and_eq_true]
        refine ⟨by rfl, List.any_eq_true.mpr ⟨(t, td v), PyDict.get?_mem h2, ?_⟩⟩
        unfold lostRows
        rw [PyDict.get?_of_mem hkn hq]
        simp [hlen, OutTab.len, hmk v' hmv, hwide]
  · rfl

/-! ## Examples -/

/-- A schema with a keyed table, a table without primary key and a generic table. -/
def pickleKinds : List (String × TabKind) :=
  [("costs", .plain ⟨["src", "dst"], ["cost", "note"], [("note", .str "-")]⟩), ("log", .plain ⟨[], ["line"], []⟩), ("raw", .generic)]

/-- A DataFrame with two columns and two rows. -/
def rawFrame : Frame := ⟨[], [.name "a", .name "b"], [([], [.num (.fin 1), .num (.fin 2)]), ([], [.nan, .str "x"])]⟩

/-- The same with one row only. -/
def wideFrame : Frame := ⟨[], [.name "a", .name "b"], [([], [.num (.fin 1), .num (.fin 2)])]⟩

/-- An object with rows in all tables. -/
def pickleObj (v : Frame) : PyDict String OutTab :=
  [("costs", .tab (.keyed [(.tup [.str "x", .str "y"], [("cost", .num (.fin 7)), ("note", .none)]),
      (.tup [.str "y", .str "x"], [("cost", .num .pinf), ("note", .str "-")])])),
    ("log", .tab (.plain [[("line", .str "b")], [("line", .str "a")], [("line", .str "b")]])), ("raw", .frame v)]

/-- `to_dict`: a dictionary with an entry for every column. -/
def exToDict (v : Frame) : AttrVal :=
  .tab (.dict (v.cols.zipIdx.map (fun p => (.one (match p.1 with | .name s => .str s | _ => .none),
    .seq (v.rows.map (fun r => (r.2[p.2]?).getD .none))))))

/-- `DataFrame(..)` of such a dictionary. -/
def exFromDict : AttrVal → Option Frame
  | .tab (.dict d) =>
    let n := match d with | (_, .seq vs) :: _ => vs.length | _ => 0
    some ⟨[], d.map (fun p => match p.1 with | .one (.str s) => .name s | _ => .name ""),
      (List.range n).map (fun i => ([], d.map (fun p => match p.2 with | .seq vs => (vs[i]?).getD .none | _ => .none)))⟩
  | _ => none

theorem pickleObj_shape (v : Frame) : DatShape pickleKinds (pickleObj v) := by
  refine ⟨rfl, fun tk htk w hw => ?_⟩
  simp only [pickleKinds, List.mem_cons, List.not_mem_nil, or_false] at htk
  rcases htk with rfl | rfl | rfl <;> cases hw
  · refine ⟨by decide, by decide, fun p hp => ?_⟩
    simp only [List.mem_cons, List.not_mem_nil, or_false] at hp
    rcases hp with rfl | rfl
    · exact ⟨by simp [KeyShape], rfl⟩
    · exact ⟨by simp [KeyShape], rfl⟩
  · refine ⟨rfl, fun p hp => ?_⟩
    simp only [List.mem_cons, List.not_mem_nil, or_false] at hp
    rcases hp with rfl | rfl | rfl <;> rfl
  · trivial

theorem pickleKinds_ok : ∀ tk ∈ pickleKinds, KindOK tk.2 := by
  intro tk htk
  simp only [pickleKinds, List.mem_cons, List.not_mem_nil, or_false] at htk
  rcases htk with rfl | rfl | rfl
  · exact ⟨by decide, by decide⟩
  · exact ⟨by decide, by decide⟩
  · trivial

theorem pickleKinds_gen : ∀ tk ∈ pickleKinds, tk.2.isGenerator = false := by
  intro tk htk
  simp only [pickleKinds, List.mem_cons, List.not_mem_nil, or_false] at htk
  rcases htk with rfl | rfl | rfl <;> rfl

example : ∃ d, asDict exToDict pickleKinds (pickleObj rawFrame) = some d ∧
    initKinds exFromDict .assert pickleKinds d = some (pickleObj rawFrame) := by
  refine as_dict_round_trip exFromDict exToDict .assert pickleKinds (by decide) pickleKinds_ok pickleKinds_gen _
    (pickleObj_shape rawFrame) (fun tk htk v hv => ?_)
  simp only [pickleKinds, List.mem_cons, List.not_mem_nil, or_false] at htk
  rcases htk with rfl | rfl | rfl <;> cases hv
  exact ⟨rfl, fun _ n hn => by cases hn; decide⟩

example : ∃ d, asDict exToDict pickleKinds (pickleObj wideFrame) = some d ∧ initKinds exFromDict .assert pickleKinds d = none :=
  as_dict_wide_generic exFromDict exToDict pickleKinds (by decide) pickleKinds_gen _ (pickleObj_shape wideFrame) "raw"
    (by simp [pickleKinds]) wideFrame rfl rfl (fun v' h => by cases h; rfl) (by decide)

example (obj : PyDict String OutTab) : asDict exToDict mixedKinds obj = none :=
  as_dict_generators exToDict mixedKinds obj ("log", .generator logClass) (by simp [mixedKinds]) rfl

end Ticdat
