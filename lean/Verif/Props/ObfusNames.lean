import Verif.Model.Obfus
import Verif.Spec.Obfus
import Verif.Lemmas.Dict
import Verif.Lemmas.FindFK2
import Verif.Props.Init
/-!
# C34: the new names are distinct
-/
set_option linter.unusedSimpArgs false
set_option linter.unusedSectionVars false
namespace Ticdat
open Spec
variable {V : Type} [DecidableEq V]

theorem get?_ofList_mem {K W : Type} [DecidableEq K] {l : List (K × W)} {k : K} {v : W} (h : PyDict.get? (PyDict.ofList l) k = some v) :
    (k, v) ∈ l := by
  rw [get?_ofList_last, Option.map_eq_some_iff] at h
  obtain ⟨p, hp, rfl⟩ := h
  have := List.mem_of_getLast? hp
  rw [List.mem_filter, decide_eq_true_eq] at this
  rw [← this.2]
  exact this.1

theorem get?_ofList_functional {K W : Type} [DecidableEq K] {l : List (K × W)} (hf : ∀ a ∈ l, ∀ b ∈ l, a.1 = b.1 → a = b) (k : K) (v : W) :
    PyDict.get? (PyDict.ofList l) k = some v ↔ (k, v) ∈ l := by
  refine ⟨get?_ofList_mem, fun h => ?_⟩
  cases hg : PyDict.get? (PyDict.ofList l) k with
  | none =>
    rw [PyDict.get?_eq_none, PyDict.keys_ofList_mem] at hg
    exact absurd (List.mem_map.2 ⟨_, h, rfl⟩) hg
  | some w => exact congrArg some (congrArg Prod.snd (hf _ (get?_ofList_mem hg) _ h rfl))

/-! ### Prefixes -/

theorem nameChars_upper {c : Char} (h : c ∈ nameChars) : c ∈ uppercase := (List.mem_filter.1 h).1

theorem nameAt_upper {letters : List Char} (hl : ∀ c ∈ letters, c ∈ nameChars) {n : Nat} {name : List Char}
    (h : nameAt letters n = some name) : ∀ c ∈ name, c ∈ uppercase := by
  unfold nameAt at h
  split at h
  · cases h
    exact fun c hc => nameChars_upper (hl c (List.mem_of_mem_take hc))
  · unfold baseConverter at h
    split at h
    · rename_i hlt
      cases h
      intro c hc
      rcases List.mem_append.1 hc with hc | hc
      · exact nameChars_upper (hl c hc)
      · simp only [List.map_cons, List.map_nil, List.mem_singleton] at hc
        subst hc
        apply nameChars_upper
        rw [List.getD_eq_getElem?_getD, List.getElem?_eq_getElem hlt]
        exact List.getElem_mem _
    · cases h

theorem findName_spec {letters : List Char} (hl : ∀ c ∈ letters, c ∈ nameChars) (used : List String) (fuel : Nat) :
    ∀ (n : Nat) {name : String}, findName letters used fuel n = some name →
      name ∉ used ∧ ∀ c ∈ name.toList, c ∈ uppercase := by
  induction fuel with
  | zero => intro n name h; cases h
  | succ fuel ih =>
    intro n name h
    simp only [findName, Option.bind_eq_some_iff] at h
    obtain ⟨l, h1, h2⟩ := h
    split at h2
    · exact ih _ h2
    · rename_i hu
      cases h2
      exact ⟨hu, by rw [String.toList_ofList]; exact nameAt_upper hl h1⟩

/-- Prefixes are distinct, and made of capital letters. -/
def PrependsOK (d : PyDict String String) : Prop :=
  (PyDict.keys d).Nodup ∧ (d.map Prod.snd).Nodup ∧ ∀ p ∈ d, ∀ c ∈ p.2.toList, c ∈ uppercase

theorem addPrepends_spec (upper : String → List Char) (ts : List String) : ∀ (d d' : PyDict String String), PrependsOK d → ts.Nodup →
    (∀ t ∈ ts, t ∉ PyDict.keys d) → addPrepends upper ts d = some d' →
    PrependsOK d' ∧ ∀ t, t ∈ PyDict.keys d' ↔ t ∈ PyDict.keys d ∨ t ∈ ts := by
  induction ts with
  | nil => intro d d' hd _ _ h; cases h; exact ⟨hd, by simp⟩
  | cons t ts ih =>
    intro d d' hd hn hk h
    simp only [addPrepends, Option.bind_eq_some_iff] at h
    obtain ⟨name, h1, h2⟩ := h
    have hs := findName_spec (fun c hc => of_decide_eq_true (List.mem_filter.1 hc).2) _ _ _ h1
    have ht : t ∉ PyDict.keys d := hk t (by simp)
    rw [PyDict.set_of_not_mem d t name ht] at h2
    obtain ⟨hn1, hn2⟩ := List.nodup_cons.1 hn
    have hd' : PrependsOK (d ++ [(t, name)]) := by
      refine ⟨?_, ?_, ?_⟩
      · simp only [PyDict.keys, List.map_append, List.map_cons, List.map_nil]
        rw [List.nodup_append]
        exact ⟨hd.1, by simp, by intro a ha b hb; simp at hb; subst hb; rintro rfl; exact ht ha⟩
      · simp only [List.map_append, List.map_cons, List.map_nil]
        rw [List.nodup_append]
        exact ⟨hd.2.1, by simp, by intro a ha b hb; simp at hb; subst hb; rintro rfl; exact hs.1 ha⟩
      · intro p hp
        rcases List.mem_append.1 hp with hp | hp
        · exact hd.2.2 p hp
        · rw [List.mem_singleton.1 hp]; exact hs.2
    have hk' : ∀ x, x ∈ PyDict.keys (d ++ [(t, name)]) ↔ x ∈ PyDict.keys d ∨ x = t := by
      intro x; simp [PyDict.keys]
    obtain ⟨r1, r2⟩ := ih _ d' hd' hn2 (by
      intro x hx hxk
      rcases (hk' x).1 hxk with h' | rfl
      · exact hk x (by simp [hx]) h'
      · exact hn1 hx) h2
    refine ⟨r1, fun x => ?_⟩
    rw [r2 x, hk' x, List.mem_cons, or_assoc]

/-! ### Labels -/

theorem append_inj_of_class {A : Type} (P : A → Prop) {a a' b b' : List A} (ha : ∀ x ∈ a, P x) (ha' : ∀ x ∈ a', P x)
    (hb : ∀ x ∈ b, ¬ P x) (hb' : ∀ x ∈ b', ¬ P x) (h : a ++ b = a' ++ b') : a = a' ∧ b = b' := by
  induction a generalizing a' with
  | nil =>
    cases a' with
    | nil => exact ⟨rfl, h⟩
    | cons x a' =>
      simp only [List.nil_append, List.cons_append] at h
      exact absurd (ha' x (by simp)) (hb x (by rw [h]; simp))
  | cons x a ih =>
    cases a' with
    | nil =>
      simp only [List.nil_append, List.cons_append] at h
      exact absurd (ha x (by simp)) (hb' x (by rw [← h]; simp))
    | cons y a' =>
      simp only [List.cons_append, List.cons.injEq] at h
      obtain ⟨h1, h2⟩ := ih (fun z hz => ha z (by simp [hz])) (fun z hz => ha' z (by simp [hz])) h.2
      exact ⟨by rw [h.1, h1], h2⟩

theorem digit_not_upper {c : Char} (h : c.isDigit = true) : c ∉ uppercase := by
  have : ∀ c ∈ uppercase, c.isDigit = false := by decide
  intro hc
  rw [this c hc] at h
  cases h

theorem digits_inj {m n : Nat} (h : Nat.toDigits 10 m = Nat.toDigits 10 n) : m = n := by
  have := congrArg (fun l => Nat.ofDigitChars 10 l 0) h
  simpa [Nat.ofDigitChars_ten_toDigits] using this

/-- A prefix of capital letters and a number can be read off their concatenation. -/
theorem label_inj {p p' : String} {m n : Nat} (hp : ∀ c ∈ p.toList, c ∈ uppercase) (hp' : ∀ c ∈ p'.toList, c ∈ uppercase)
    (h : p ++ toString m = p' ++ toString n) : p = p' ∧ m = n := by
  have h1 := congrArg String.toList h
  simp only [String.toList_append, Nat.toString_eq_repr, Nat.toList_repr] at h1
  obtain ⟨h2, h3⟩ := append_inj_of_class (fun c => c ∈ uppercase) hp hp'
    (fun c hc => digit_not_upper (Nat.isDigit_of_mem_toDigits (by omega) (by omega) hc))
    (fun c hc => digit_not_upper (Nat.isDigit_of_mem_toDigits (by omega) (by omega) hc)) h1
  exact ⟨String.toList_inj.1 h2, digits_inj h3⟩

theorem mem_tableKeys {db : DB V} {t : String} {v : V} : v ∈ tableKeys db t ↔ KeyOf db t v := by
  unfold tableKeys KeyOf
  rw [List.mem_filterMap]
  constructor
  · rintro ⟨⟨pk, row⟩, hm, he⟩
    cases pk with
    | one w => cases he; exact ⟨row, hm⟩
    | many ws => cases he
    | idx i => cases he
  · rintro ⟨row, hm⟩
    exact ⟨_, hm, rfl⟩

theorem filterMap_nodup {A B : Type} (f : A → Option B) (l : List A) (hi : ∀ a b c, f a = some c → f b = some c → a = b) (h : l.Nodup) :
    (l.filterMap f).Nodup := by
  induction l with
  | nil => simp
  | cons a l ih =>
    obtain ⟨h1, h2⟩ := List.nodup_cons.1 h
    cases hf : f a with
    | none => rw [List.filterMap_cons_none hf]; exact ih h2
    | some c =>
      rw [List.filterMap_cons_some hf, List.nodup_cons]
      refine ⟨?_, ih h2⟩
      rw [List.mem_filterMap]
      rintro ⟨b, hb, hfb⟩
      exact h1 (hi a b c hf hfb ▸ hb)

theorem tableKeys_nodup {s : Schema} {db : DB V} {t : String} (h : TableOK (tableOf s t) (db t)) : (tableKeys db t).Nodup := by
  unfold tableKeys
  have e : (db t).items.filterMap (fun p => p.1.scalar?) =
      ((db t).items.map Prod.fst).filterMap PKey.scalar? := by
    rw [List.filterMap_map]; rfl
  rw [e]
  apply filterMap_nodup
  · intro a b c ha hb
    cases a <;> cases b <;> simp_all [PKey.scalar?]
  · cases hd : db t with
    | dict rows => rw [hd] at h; exact h.2.1
    | list rows =>
      simp only [TableData.items, List.map_map, Function.comp_def]
      have : (rows.zipIdx.map (fun x => (PKey.idx x.2 : PKey V))) = (rows.zipIdx.map Prod.snd).map PKey.idx := by rw [List.map_map]; rfl
      rw [this]
      rw [List.zipIdx_map_snd]
      exact List.Pairwise.map _ (fun a b h e => h (by cases e; rfl)) (List.nodup_range' (s := 0) (n := rows.length))

/-- What `reverse_renamings` is. -/
structure RROK (db : DB V) (ents : List String) (rr : PyDict (String × V) String) : Prop where
  nodup : (PyDict.keys rr).Nodup
  mem : ∀ E v, (E, v) ∈ PyDict.keys rr ↔ E ∈ ents ∧ KeyOf db E v
  inj : ∀ E v E' v' l, PyDict.get? rr (E, v) = some l → PyDict.get? rr (E', v') = some l → E = E' ∧ v = v'

theorem reverseRenamings_spec {sort : List V → Option (List V)} (hsort : ∀ l l', sort l = some l' → l'.Perm l) {s : Schema}
    {db : DB V} {d : PyDict String String} (hd : PrependsOK d) (ht : ∀ t ∈ PyDict.keys d, TableOK (tableOf s t) (db t))
    {rr : PyDict (String × V) String} (h : reverseRenamings sort db d = some rr) : RROK db (PyDict.keys d) rr := by
  unfold reverseRenamings at h
  rw [Option.map_eq_some_iff] at h
  obtain ⟨l, hl, rfl⟩ := h
  rw [mapM_eq_some_iff] at hl
  -- the entries
  have hmem : ∀ x, x ∈ l.flatten ↔ ∃ p ∈ d, ∃ ks, sort (tableKeys db p.1) = some ks ∧ ∃ i v, ks[i]? = some v ∧
      x = ((p.1, v), p.2 ++ toString (i + 1)) := by
    intro x
    rw [List.mem_flatten]
    constructor
    · rintro ⟨e, he, hx⟩
      have : some e ∈ d.map (labelTable sort db) := by rw [hl]; exact List.mem_map.2 ⟨e, he, rfl⟩
      obtain ⟨p, hp, hpe⟩ := List.mem_map.1 this
      unfold labelTable at hpe
      rw [Option.map_eq_some_iff] at hpe
      obtain ⟨ks, hks, rfl⟩ := hpe
      obtain ⟨q, hq, rfl⟩ := List.mem_map.1 hx
      refine ⟨p, hp, ks, hks, q.2, q.1, ?_, rfl⟩
      exact List.mem_zipIdx_iff_getElem?.1 hq
    · rintro ⟨p, hp, ks, hks, i, v, hv, rfl⟩
      refine ⟨ks.zipIdx.map (fun q => ((p.1, q.1), p.2 ++ toString (q.2 + 1))), ?_, ?_⟩
      · have : labelTable sort db p ∈ d.map (labelTable sort db) := List.mem_map.2 ⟨p, hp, rfl⟩
        rw [hl] at this
        obtain ⟨e, he, hee⟩ := List.mem_map.1 this
        unfold labelTable at hee
        rw [hks] at hee
        cases hee
        exact he
      · exact List.mem_map.2 ⟨(v, i), List.mem_zipIdx_iff_getElem?.2 hv, rfl⟩
  have hks : ∀ p ∈ d, ∀ ks, sort (tableKeys db p.1) = some ks → ks.Nodup := fun p hp ks hks =>
    (hsort _ _ hks).nodup_iff.2 (tableKeys_nodup (ht p.1 (List.mem_map.2 ⟨p, hp, rfl⟩)))
  have same : ∀ p ∈ d, ∀ q ∈ d, p.1 = q.1 → p = q := by
    intro p hp q hq e
    have h1 := PyDict.get?_of_mem hd.1 (show (p.1, p.2) ∈ d from hp)
    have h2 := PyDict.get?_of_mem hd.1 (show (q.1, q.2) ∈ d from hq)
    rw [e, h2] at h1
    exact Prod.ext e (Option.some.inj h1).symm
  have same2 : ∀ p ∈ d, ∀ q ∈ d, p.2 = q.2 → p = q := by
    intro p hp q hq e
    obtain ⟨i, hi⟩ := List.mem_iff_getElem?.1 hp
    obtain ⟨j, hj⟩ := List.mem_iff_getElem?.1 hq
    have hi' : i < d.length := (List.getElem?_eq_some_iff.1 hi).1
    have := (List.getElem?_inj (l := d.map Prod.snd) (by simpa using hi') hd.2.1).1 (show (d.map Prod.snd)[i]? = (d.map Prod.snd)[j]? by
      rw [List.getElem?_map, List.getElem?_map, hi, hj]; simp [e])
    subst this
    rw [hi] at hj
    exact Option.some.inj hj
  have inj : ∀ a ∈ l.flatten, ∀ b ∈ l.flatten, (a.1 = b.1 → a = b) ∧ (a.2 = b.2 → a = b) := by
    intro a ha b hb
    obtain ⟨p, hp, ks, hk, i, v, hv, rfl⟩ := (hmem a).1 ha
    obtain ⟨p', hp', ks', hk', i', v', hv', rfl⟩ := (hmem b).1 hb
    constructor
    · intro e
      simp only [Prod.mk.injEq] at e
      have := same p hp p' hp' e.1
      subst this
      rw [hk] at hk'
      cases hk'
      obtain ⟨_, rfl⟩ := e
      have hi : i < ks.length := (List.getElem?_eq_some_iff.1 hv).1
      have := (List.getElem?_inj hi (hks p hp ks hk)).1 (hv.trans hv'.symm)
      rw [this]
    · intro e
      simp only at e
      obtain ⟨e1, e2⟩ := label_inj (hd.2.2 p hp) (hd.2.2 p' hp') e
      have := same2 p hp p' hp' e1
      subst this
      rw [hk] at hk'
      cases hk'
      have : i = i' := by omega
      subst this
      rw [hv] at hv'
      cases hv'
      rfl
  have hg : ∀ k v, PyDict.get? (PyDict.ofList l.flatten) k = some v ↔ (k, v) ∈ l.flatten :=
    get?_ofList_functional (fun a ha b hb => (inj a ha b hb).1)
  refine ⟨PyDict.ofList_keys_nodup _, ?_, ?_⟩
  · intro E v
    rw [PyDict.keys_ofList_mem]
    constructor
    · intro hx
      obtain ⟨x, hx, he⟩ := List.mem_map.1 hx
      obtain ⟨p, hp, ks, hk, i, v', hv, rfl⟩ := (hmem x).1 hx
      cases he
      refine ⟨List.mem_map.2 ⟨p, hp, rfl⟩, mem_tableKeys.1 ?_⟩
      exact (hsort _ _ hk).mem_iff.1 (List.mem_iff_getElem?.2 ⟨i, hv⟩)
    · rintro ⟨hE, hv⟩
      obtain ⟨p, hp, rfl⟩ := List.mem_map.1 hE
      have : labelTable sort db p ∈ d.map (labelTable sort db) := List.mem_map.2 ⟨p, hp, rfl⟩
      rw [hl] at this
      obtain ⟨e, _, hee⟩ := List.mem_map.1 this
      unfold labelTable at hee
      have hee := hee.symm
      rw [Option.map_eq_some_iff] at hee
      obtain ⟨ks, hk, _⟩ := hee
      have hvk : v ∈ ks := (hsort _ _ hk).mem_iff.2 (mem_tableKeys.2 hv)
      obtain ⟨i, hi⟩ := List.mem_iff_getElem?.1 hvk
      exact List.mem_map.2 ⟨_, (hmem _).2 ⟨p, hp, ks, hk, i, v, hi, rfl⟩, rfl⟩
  · intro E v E' v' lab h1 h2
    have := (inj _ ((hg _ _).1 h1) _ ((hg _ _).1 h2)).2 rfl
    simp only [Prod.mk.injEq] at this
    exact this.1

end Ticdat
