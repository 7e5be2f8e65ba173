import Verif.Spec.Ampl

/-!
# C64: `ampl_format`
-/
set_option linter.unusedSimpArgs false
namespace Ticdat
open Spec

/-! ## `str.replace` -/

theorem replaceGo_skip (old new : Text) : ∀ (l rest : Text), replaceGo old new l.length (l ++ rest) = replaceGo old new 0 rest
  | [], rest => rfl
  | c :: l, rest => by
    change replaceGo old new l.length (l ++ rest) = _
    exact replaceGo_skip old new l rest

theorem replaceGo_hit (old new rest : Text) (h : old ≠ []) :
    replaceGo old new 0 (old ++ rest) = new ++ replaceGo old new 0 rest := by
  cases old with
  | nil => exact absurd rfl h
  | cons c l =>
    rw [List.cons_append, replaceGo, if_pos]
    · simp only [List.length_cons, Nat.add_sub_cancel]
      rw [replaceGo_skip]
    · rw [List.isPrefixOf_iff_prefix]
      exact ⟨rest, rfl⟩

theorem replaceGo_miss (old new rest : Text) : ∀ (w : Text), (∀ x s, w = x ++ s → s ≠ [] → ¬ old <+: s ++ rest) →
    replaceGo old new 0 (w ++ rest) = w ++ replaceGo old new 0 rest
  | [], _ => rfl
  | c :: w, h => by
    rw [List.cons_append, replaceGo, if_neg]
    · rw [replaceGo_miss old new rest w (fun x s hw hs => h (c :: x) s (by rw [hw]; rfl) hs)]
      rfl
    · rw [List.isPrefixOf_iff_prefix]
      exact h [] (c :: w) rfl (by simp)

theorem occursIn_iff (old : Text) : ∀ (s : Text), occursIn old s = true ↔ old <:+: s
  | [] => by
    rw [occursIn, List.isPrefixOf_iff_prefix]
    constructor
    · exact fun h => h.isInfix
    · intro h
      rw [List.infix_nil] at h
      subst h
      exact List.prefix_refl []
  | c :: cs => by
    rw [occursIn, Bool.or_eq_true, List.isPrefixOf_iff_prefix, occursIn_iff old cs, List.infix_cons_iff]

/-! ## Tokens -/

/-- A character, an opening or a closing pair of braces. -/
inductive ATok where
  | ch (c : Char)
  | op
  | cl
deriving DecidableEq

/-- How tokens are written: `l` and `r` for the single braces, `o` and `c` for the pairs. -/
def atok (l r o c : Text) : ATok → Text
  | .ch x => if x = '{' then l else if x = '}' then r else [x]
  | .op => o
  | .cl => c

/-- A replacement done token by token. -/
theorem replace_tokens (old new : Text) (f g : ATok → Text) (P : List ATok → Prop)
    (hP : ∀ t b, P (t :: b) → P b ∧
      replaceGo old new 0 (f t ++ b.flatMap f) = g t ++ replaceGo old new 0 (b.flatMap f)) :
    ∀ toks, P toks → replaceText old new (toks.flatMap f) = toks.flatMap g
  | [], _ => rfl
  | t :: b, h => by
    obtain ⟨hb, he⟩ := hP t b h
    unfold replaceText
    rw [List.flatMap_cons, he, List.flatMap_cons]
    congr 1
    exact replace_tokens old new f g P hP b hb

/-- May the tokens `x` and `y` be neighbours? -/
def compat (x y : ATok) : Prop := (x = .ch '{' → y ≠ .ch '{' ∧ y ≠ .op) ∧ (x = .ch '}' → y ≠ .ch '}' ∧ y ≠ .cl)

/-- Neighbours are compatible. -/
def Adj : List ATok → Prop
  | [] => True
  | x :: l => (∀ y, l.head? = some y → compat x y) ∧ Adj l

theorem adj_append : ∀ (a b : List ATok), Adj a → Adj b →
    (∀ x, a.getLast? = some x → ∀ y, b.head? = some y → compat x y) → Adj (a ++ b)
  | [], b, _, hb, _ => hb
  | [x], b, _, hb, h => ⟨fun y hy => h x rfl y hy, hb⟩
  | x :: x' :: a, b, ha, hb, h =>
    ⟨fun y hy => ha.1 y hy, adj_append (x' :: a) b ha.2 hb (fun z hz => h z (by rw [List.getLast?_cons_cons]; exact hz))⟩

theorem head_not {f : ATok → Text} {b : List ATok} {c : Char} (hf : ∀ t, f t ≠ [])
    (h : ∀ y, b.head? = some y → (f y).head? ≠ some c) : (b.flatMap f).head? ≠ some c := by
  cases b with
  | nil => simp
  | cons t b =>
    rw [List.flatMap_cons]
    have := h t rfl
    cases hft : f t with
    | nil => exact absurd hft (hf t)
    | cons d r =>
      rw [hft] at this
      simpa using this

theorem not_pair {c : Char} {s rest : Text} (h1 : s = [c] → rest.head? ≠ some c) (h2 : ∀ r, s ≠ c :: c :: r) (hs : s ≠ []) :
    ¬ [c, c] <+: s ++ rest := by
  rintro ⟨r, hr⟩
  cases s with
  | nil => exact hs rfl
  | cons a s =>
    simp only [List.cons_append, List.nil_append, List.cons.injEq] at hr
    obtain ⟨rfl, hr⟩ := hr
    cases s with
    | nil =>
      apply h1 rfl
      rw [List.nil_append] at hr
      rw [← hr]; rfl
    | cons d s =>
      simp only [List.cons_append, List.cons.injEq] at hr
      obtain ⟨rfl, -⟩ := hr
      exact h2 s rfl

theorem atok_single (o c : Text) (x : Char) : atok ['{'] ['}'] o c (.ch x) = [x] := by
  change (if x = '{' then ['{'] else if x = '}' then ['}'] else [x]) = [x]
  split
  · simp_all
  · split <;> simp_all

theorem atok_plain (l r o c : Text) {x : Char} (h1 : x ≠ '{') (h2 : x ≠ '}') : atok l r o c (.ch x) = [x] := by
  change (if x = '{' then l else if x = '}' then r else [x]) = [x]
  rw [if_neg h1, if_neg h2]

theorem atok_ne_nil {l r o c : Text} (hl : l ≠ []) (hr : r ≠ []) (ho : o ≠ []) (hc : c ≠ []) (t : ATok) : atok l r o c t ≠ [] := by
  cases t with
  | ch x =>
    change (if x = '{' then l else if x = '}' then r else [x]) ≠ []
    split
    · exact hl
    · split
      · exact hr
      · simp
  | op => exact ho
  | cl => exact hc

theorem suffix_single {c : Char} {x s : Text} (hx : [c] = x ++ s) (hs : s ≠ []) : s = [c] := by
  cases x with
  | nil => exact hx.symm
  | cons d x =>
    simp only [List.cons_append, List.cons.injEq] at hx
    exact absurd (List.append_eq_nil_iff.mp hx.2.symm).2 hs

/-- A replacement leaves a word alone that has no character of the pattern. -/
theorem replaceGo_other (c : Char) (p new rest w : Text) (h : c ∉ w) :
    replaceGo (c :: p) new 0 (w ++ rest) = w ++ replaceGo (c :: p) new 0 rest := by
  refine replaceGo_miss _ _ _ w (fun x s hx hs => ?_)
  rintro ⟨r, hr⟩
  cases s with
  | nil => exact hs rfl
  | cons d s =>
    simp only [List.cons_append, List.cons.injEq] at hr
    apply h
    rw [hx, hr.1]
    simp

theorem ampl_stage1 (toks : List ATok) (h : Adj toks) :
    replaceText ['{', '{'] amplLeft (toks.flatMap (atok ['{'] ['}'] ['{', '{'] ['}', '}'])) =
      toks.flatMap (atok ['{'] ['}'] amplLeft ['}', '}']) := by
  refine replace_tokens _ _ _ _ Adj ?_ toks h
  rintro t b ⟨hn, hb⟩
  refine ⟨hb, ?_⟩
  cases t with
  | op => exact replaceGo_hit _ _ _ (by simp)
  | cl => exact replaceGo_other _ _ _ _ _ (by simp [atok])
  | ch c =>
    rw [atok_single, atok_single]
    refine replaceGo_miss _ _ _ [c] (fun x s hx hs => ?_)
    obtain rfl := suffix_single hx hs
    refine not_pair ?_ (by simp) hs
    intro hc
    cases hc
    refine head_not (atok_ne_nil (by simp) (by simp) (by simp) (by simp)) (fun y hy => ?_)
    obtain ⟨h1, h2⟩ := (hn y hy).1 rfl
    cases y with
    | op => exact absurd rfl h2
    | cl => simp [atok]
    | ch d =>
      rw [atok_single]
      intro e
      exact h1 (by simpa using e)

theorem ampl_stage2 (toks : List ATok) (h : Adj toks) :
    replaceText ['}', '}'] amplRight (toks.flatMap (atok ['{'] ['}'] amplLeft ['}', '}'])) =
      toks.flatMap (atok ['{'] ['}'] amplLeft amplRight) := by
  refine replace_tokens _ _ _ _ Adj ?_ toks h
  rintro t b ⟨hn, hb⟩
  refine ⟨hb, ?_⟩
  cases t with
  | cl => exact replaceGo_hit _ _ _ (by simp)
  | op => exact replaceGo_other _ _ _ _ _ (by simp only [atok]; decide +kernel)
  | ch c =>
    rw [atok_single, atok_single]
    refine replaceGo_miss _ _ _ [c] (fun x s hx hs => ?_)
    obtain rfl := suffix_single hx hs
    refine not_pair ?_ (by simp) hs
    intro hc
    cases hc
    refine head_not (atok_ne_nil (by simp) (by simp) (by decide +kernel) (by simp)) (fun y hy => ?_)
    obtain ⟨h1, h2⟩ := (hn y hy).2 rfl
    cases y with
    | cl => exact absurd rfl h2
    | op => simp only [atok]; decide +kernel
    | ch d =>
      rw [atok_single]
      intro e
      exact h1 (by simpa using e)

theorem ampl_stage3 (toks : List ATok) :
    replaceText ['{'] ['{', '{'] (toks.flatMap (atok ['{'] ['}'] amplLeft amplRight)) =
      toks.flatMap (atok ['{', '{'] ['}'] amplLeft amplRight) := by
  refine replace_tokens _ _ _ _ (fun _ => True) ?_ toks trivial
  rintro t b -
  refine ⟨trivial, ?_⟩
  cases t with
  | cl => exact replaceGo_other _ _ _ _ _ (by simp only [atok]; decide +kernel)
  | op => exact replaceGo_other _ _ _ _ _ (by simp only [atok]; decide +kernel)
  | ch c =>
    by_cases h1 : c = '{'
    · subst h1
      exact replaceGo_hit ['{'] ['{', '{'] _ (by simp)
    · rw [atok_single]
      by_cases h2 : c = '}'
      · subst h2
        exact replaceGo_other _ _ _ _ ['}'] (by simp)
      · rw [atok_plain _ _ _ _ h1 h2]
        exact replaceGo_other _ _ _ _ [c] (by simpa using fun e => h1 e.symm)

theorem ampl_stage4 (toks : List ATok) :
    replaceText ['}'] ['}', '}'] (toks.flatMap (atok ['{', '{'] ['}'] amplLeft amplRight)) =
      toks.flatMap (atok ['{', '{'] ['}', '}'] amplLeft amplRight) := by
  refine replace_tokens _ _ _ _ (fun _ => True) ?_ toks trivial
  rintro t b -
  refine ⟨trivial, ?_⟩
  cases t with
  | cl => exact replaceGo_other _ _ _ _ _ (by simp only [atok]; decide +kernel)
  | op => exact replaceGo_other _ _ _ _ _ (by simp only [atok]; decide +kernel)
  | ch c =>
    by_cases h1 : c = '}'
    · subst h1
      exact replaceGo_hit ['}'] ['}', '}'] _ (by simp)
    · by_cases h2 : c = '{'
      · subst h2
        exact replaceGo_other _ _ _ _ ['{', '{'] (by simp)
      · rw [atok_plain _ _ _ _ h2 h1, atok_plain _ _ _ _ h2 h1]
        exact replaceGo_other _ _ _ _ [c] (by simpa using fun e => h1 e.symm)

/-! ## The markers -/

/-- The text that both markers have in common. -/
def amplMark : Text := "ticdat_ampl_format".toList

/-- The pattern cannot begin inside one token and go on in the next. -/
def goodPat : Text → Bool
  | [] => true
  | c :: p => c != '{' && c != '}' && (c != '_' || (p.head?.isSome && p.head? != some 't')) && goodPat p

theorem peel (f : ATok → Text)
    (hf : ∀ t, (∃ c, t = .ch c ∧ f t = [c]) ∨ (∃ r, f t = '_' :: 't' :: r) ∨ (∃ r, f t = '{' :: r) ∨ ∃ r, f t = '}' :: r) :
    ∀ (p : Text) (toks : List ATok), goodPat p = true → p <+: toks.flatMap f → ∃ toks', toks = p.map .ch ++ toks'
  | [], toks, _, _ => ⟨toks, rfl⟩
  | c :: p, [], _, h => by simp at h
  | c :: p, t :: toks, hg, h => by
    simp only [goodPat, Bool.and_eq_true, bne_iff_ne, ne_eq, Bool.or_eq_true] at hg
    obtain ⟨⟨⟨g1, g2⟩, g3⟩, g4⟩ := hg
    rw [List.flatMap_cons] at h
    rcases hf t with ⟨d, rfl, hd⟩ | ⟨r, hr⟩ | ⟨r, hr⟩ | ⟨r, hr⟩
    · rw [hd, List.singleton_append, List.cons_prefix_cons] at h
      obtain ⟨rfl, h⟩ := h
      obtain ⟨toks', rfl⟩ := peel f hf p toks g4 h
      exact ⟨toks', rfl⟩
    · rw [hr, List.cons_append, List.cons_prefix_cons] at h
      obtain ⟨rfl, h⟩ := h
      rcases g3 with g3 | ⟨g3, g3'⟩
      · exact absurd rfl g3
      · cases p with
        | nil => simp at g3
        | cons e p =>
          rw [List.cons_append, List.cons_prefix_cons] at h
          obtain ⟨rfl, -⟩ := h
          exact absurd rfl g3'
    · rw [hr, List.cons_append, List.cons_prefix_cons] at h
      exact absurd h.1 g1
    · rw [hr, List.cons_append, List.cons_prefix_cons] at h
      exact absurd h.1 g2

/-- The common text of the markers is not among the tokens. -/
def NoMark (toks : List ATok) : Prop := ∀ a b, toks ≠ a ++ (amplMark.map .ch ++ b)

theorem NoMark.tail {t : ATok} {b : List ATok} (h : NoMark (t :: b)) : NoMark b := by
  intro a c e
  exact h (t :: a) c (by rw [e]; rfl)

/-- A marker does not begin with the last character before the tokens. -/
theorem no_marker (f : ATok → Text)
    (hf : ∀ t, (∃ c, t = .ch c ∧ f t = [c]) ∨ (∃ r, f t = '_' :: 't' :: r) ∨ (∃ r, f t = '{' :: r) ∨ ∃ r, f t = '}' :: r)
    (b : List ATok) (hb : NoMark b) (c : Char) (e : Text) : ¬ ('_' :: (amplMark ++ e)) <+: [c] ++ b.flatMap f := by
  intro h
  rw [List.singleton_append, List.cons_prefix_cons] at h
  obtain ⟨toks', ht⟩ := peel f hf amplMark b (by decide +kernel) (List.IsPrefix.trans (List.prefix_append _ _) h.2)
  exact hb [] toks' ht

theorem left_eq : amplLeft = '_' :: (amplMark ++ ['_', '[', '_']) := by decide +kernel
theorem right_eq : amplRight = '_' :: (amplMark ++ ['_', ']', '_']) := by decide +kernel

theorem left_right : ∀ i, i < 21 → amplLeft.take (22 - i) ≠ amplRight.drop i := by decide +kernel

theorem atok_shape {l r o c : Text} (hl : ∃ x, l = '{' :: x) (hr : ∃ x, r = '}' :: x)
    (ho : (∃ x, o = '_' :: 't' :: x) ∨ ∃ x, o = '{' :: x) (hc : ∃ x, c = '_' :: 't' :: x) (t : ATok) :
    (∃ x, t = .ch x ∧ atok l r o c t = [x]) ∨ (∃ x, atok l r o c t = '_' :: 't' :: x) ∨ (∃ x, atok l r o c t = '{' :: x) ∨
      ∃ x, atok l r o c t = '}' :: x := by
  cases t with
  | ch x =>
    by_cases h1 : x = '{'
    · subst h1; exact .inr (.inr (.inl hl))
    · by_cases h2 : x = '}'
      · subst h2; exact .inr (.inr (.inr hr))
      · exact .inl ⟨x, rfl, atok_plain _ _ _ _ h1 h2⟩
  | op =>
    rcases ho with ho | ho
    · exact .inr (.inl ho)
    · exact .inr (.inr (.inl ho))
  | cl => exact .inr (.inl hc)

theorem ampl_stage5 (toks : List ATok) (h : NoMark toks) :
    replaceText amplLeft ['{'] (toks.flatMap (atok ['{', '{'] ['}', '}'] amplLeft amplRight)) =
      toks.flatMap (atok ['{', '{'] ['}', '}'] ['{'] amplRight) := by
  refine replace_tokens _ _ _ _ NoMark ?_ toks h
  intro t b h
  have hb := h.tail
  refine ⟨hb, ?_⟩
  have hf := atok_shape (l := ['{', '{']) (r := ['}', '}']) (o := amplLeft) (c := amplRight) ⟨_, rfl⟩ ⟨_, rfl⟩
    (.inl ⟨amplLeft.drop 2, by decide +kernel⟩) ⟨amplRight.drop 2, by decide +kernel⟩
  cases t with
  | op => exact replaceGo_hit _ _ _ (by decide +kernel)
  | cl =>
    refine replaceGo_miss _ _ _ amplRight (fun x s hx hs => ?_)
    have hlen : x.length + s.length = 22 := by
      have := congrArg List.length hx
      rw [List.length_append] at this
      rw [← this]; decide +kernel
    have hd : s = amplRight.drop x.length := by rw [hx]; simp
    have hs0 : 0 < s.length := List.length_pos_iff.mpr hs
    by_cases h21 : x.length < 21
    · intro hp
      apply left_right x.length h21
      rw [← hd]
      have : s <+: amplLeft := by
        refine List.prefix_of_prefix_length_le (List.prefix_append s _) hp ?_
        have : amplLeft.length = 22 := by decide +kernel
        omega
      rw [← List.prefix_iff_eq_take.mp this |>.symm]
      congr 1
      omega
    · have hx21 : x.length = 21 := by omega
      have hs1 : s = ['_'] := by rw [hd, hx21]; decide +kernel
      rw [hs1, left_eq]
      exact no_marker _ hf b hb '_' _
  | ch c =>
    by_cases h1 : c = '{'
    · subst h1
      rw [left_eq]
      exact replaceGo_other _ _ _ _ ['{', '{'] (by simp)
    · by_cases h2 : c = '}'
      · subst h2
        rw [left_eq]
        exact replaceGo_other _ _ _ _ ['}', '}'] (by simp)
      · rw [atok_plain _ _ _ _ h1 h2, atok_plain _ _ _ _ h1 h2]
        refine replaceGo_miss _ _ _ [c] (fun x s hx hs => ?_)
        obtain rfl := suffix_single hx hs
        rw [left_eq]
        exact no_marker _ hf b hb c _

theorem ampl_stage6 (toks : List ATok) (h : NoMark toks) :
    replaceText amplRight ['}'] (toks.flatMap (atok ['{', '{'] ['}', '}'] ['{'] amplRight)) =
      toks.flatMap (atok ['{', '{'] ['}', '}'] ['{'] ['}']) := by
  refine replace_tokens _ _ _ _ NoMark ?_ toks h
  intro t b h
  have hb := h.tail
  refine ⟨hb, ?_⟩
  have hf := atok_shape (l := ['{', '{']) (r := ['}', '}']) (o := ['{']) (c := amplRight) ⟨_, rfl⟩ ⟨_, rfl⟩
    (.inr ⟨_, rfl⟩) ⟨amplRight.drop 2, by decide +kernel⟩
  cases t with
  | cl => exact replaceGo_hit _ _ _ (by decide +kernel)
  | op =>
    rw [right_eq]
    exact replaceGo_other _ _ _ _ ['{'] (by simp)
  | ch c =>
    by_cases h1 : c = '{'
    · subst h1
      rw [right_eq]
      exact replaceGo_other _ _ _ _ ['{', '{'] (by simp)
    · by_cases h2 : c = '}'
      · subst h2
        rw [right_eq]
        exact replaceGo_other _ _ _ _ ['}', '}'] (by simp)
      · rw [atok_plain _ _ _ _ h1 h2, atok_plain _ _ _ _ h1 h2]
        refine replaceGo_miss _ _ _ [c] (fun x s hx hs => ?_)
        obtain rfl := suffix_single hx hs
        rw [right_eq]
        exact no_marker _ hf b hb c _

/-! ## Templates -/

/-- The tokens of a literal text and a label, as the user means them. -/
def plainTok (s : Text × Text) : List ATok := s.1.map .ch ++ (.op :: (s.2.map .ch ++ [.cl]))

/-- The tokens as `str.replace` finds them: of three opening braces it takes the first two. -/
def segTok (s : Text × Text) : List ATok :=
  if s.1.getLast? = some '{' then s.1.dropLast.map .ch ++ (.op :: .ch '{' :: (s.2.map .ch ++ [.cl])) else plainTok s

theorem seg_swap (l r o c : Text) (h : l ++ o = o ++ l) (s : Text × Text) :
    (segTok s).flatMap (atok l r o c) = (plainTok s).flatMap (atok l r o c) := by
  unfold segTok
  split
  · rename_i hl
    have hne : s.1 ≠ [] := by intro e; rw [e] at hl; cases hl
    have hd : s.1 = s.1.dropLast ++ ['{'] := by
      have h1 := (List.dropLast_concat_getLast hne).symm
      rw [List.getLast?_eq_some_getLast hne] at hl
      rw [Option.some.inj hl] at h1
      exact h1
    have e : plainTok s = s.1.dropLast.map .ch ++ (.ch '{' :: .op :: (s.2.map .ch ++ [.cl])) := by
      unfold plainTok
      conv => lhs; rw [hd]
      simp
    rw [e]
    simp only [List.flatMap_append, List.flatMap_cons]
    congr 1
    have e1 : atok l r o c (.ch '{') = l := rfl
    have e2 : atok l r o c .op = o := rfl
    simp only [e1, e2, ← List.append_assoc]
    rw [h]
  · rfl

theorem label_char {k : Text} (h : IsLabel k) {c : Char} (hc : c ∈ k) : c ≠ '{' ∧ c ≠ '}' := by
  have := h.2 c hc
  constructor <;> rintro rfl <;> exact absurd this (by decide)

theorem flatMap_plain (l r o c : Text) : ∀ (w : Text), (∀ x ∈ w, x ≠ '{' ∧ x ≠ '}') → (w.map .ch).flatMap (atok l r o c) = w
  | [], _ => rfl
  | x :: w, h => by
    rw [List.map_cons, List.flatMap_cons, atok_plain _ _ _ _ (h x (by simp)).1 (h x (by simp)).2,
      flatMap_plain l r o c w (fun y hy => h y (by simp [hy]))]
    rfl

theorem flatMap_single (o c : Text) : ∀ (w : Text), (w.map .ch).flatMap (atok ['{'] ['}'] o c) = w
  | [] => rfl
  | x :: w => by
    rw [List.map_cons, List.flatMap_cons, atok_single, flatMap_single o c w]
    rfl

/-- The tokens of a template. -/
def tmplTok (t : AmplTemplate) : List ATok := t.segs.flatMap segTok ++ t.last.map .ch

theorem tmpl_source (t : AmplTemplate) : (tmplTok t).flatMap (atok ['{'] ['}'] ['{', '{'] ['}', '}']) = t.source := by
  unfold tmplTok AmplTemplate.source
  rw [List.flatMap_append, flatMap_single]
  congr 1
  generalize t.segs = segs
  induction segs with
  | nil => rfl
  | cons s segs ih =>
    rw [List.flatMap_cons, List.flatMap_append, ih, seg_swap ['{'] ['}'] ['{', '{'] ['}', '}'] rfl, List.flatMap_cons]
    congr 1
    unfold plainTok
    rw [List.flatMap_append, flatMap_single, List.flatMap_cons, List.flatMap_append, flatMap_single]
    simp [atok]

theorem adj_lit : ∀ (w : Text), SingleBraces w → Adj (w.map .ch)
  | [], _ => trivial
  | c :: w, h => by
    refine ⟨fun y hy => ?_, adj_lit w ⟨fun e => h.1 (List.infix_cons e), fun e => h.2 (List.infix_cons e)⟩⟩
    cases w with
    | nil => cases hy
    | cons d w =>
      obtain rfl : ATok.ch d = y := by simpa using hy
      constructor
      · intro e
        obtain rfl : c = '{' := by simpa using e
        refine ⟨?_, by simp⟩
        intro e
        obtain rfl : d = '{' := by simpa using e
        exact h.1 (List.IsPrefix.isInfix ⟨w, rfl⟩)
      · intro e
        obtain rfl : c = '}' := by simpa using e
        refine ⟨?_, by simp⟩
        intro e
        obtain rfl : d = '}' := by simpa using e
        exact h.2 (List.IsPrefix.isInfix ⟨w, rfl⟩)

theorem compat_plain {c : Char} (h1 : c ≠ '{') (h2 : c ≠ '}') (y : ATok) : compat (.ch c) y :=
  ⟨fun e => absurd (by simpa using e) h1, fun e => absurd (by simpa using e) h2⟩

theorem adj_label : ∀ (k : Text), (∀ c ∈ k, c ≠ '{' ∧ c ≠ '}') → Adj (k.map .ch ++ [.cl])
  | [], _ => ⟨by simp, trivial⟩
  | c :: k, h => ⟨fun y _ => compat_plain (h c (by simp)).1 (h c (by simp)).2 y, adj_label k (fun d hd => h d (by simp [hd]))⟩

theorem compat_op (y : ATok) : compat .op y := ⟨by simp, by simp⟩
theorem compat_cl (y : ATok) : compat .cl y := ⟨by simp, by simp⟩

theorem adj_seg (s : Text × Text) (hs : SingleBraces s.1) (hk : IsLabel s.2) : Adj (segTok s) := by
  have hkey := adj_label s.2 (fun c hc => label_char hk hc)
  unfold segTok
  split
  · rename_i hl
    have hne : s.1 ≠ [] := by intro e; rw [e] at hl; cases hl
    have hd : s.1 = s.1.dropLast ++ ['{'] := by
      have h1 := (List.dropLast_concat_getLast hne).symm
      rw [List.getLast?_eq_some_getLast hne] at hl
      rw [Option.some.inj hl] at h1
      exact h1
    have hpre : s.1.dropLast <+: s.1 := ⟨['{'], hd.symm⟩
    refine adj_append _ _ (adj_lit _ ⟨fun e => hs.1 (e.trans hpre.isInfix), fun e => hs.2 (e.trans hpre.isInfix)⟩) ?_ ?_
    · refine ⟨fun y _ => compat_op y, fun y hy => ?_, hkey⟩
      obtain ⟨⟨c, r, hcr, -⟩, -⟩ := id hk
      rw [hcr] at hy
      obtain rfl : ATok.ch c = y := by simpa using hy
      refine ⟨fun _ => ⟨?_, by simp⟩, by simp⟩
      intro e
      exact (label_char hk (c := c) (by rw [hcr]; simp)).1 (by simpa using e)
    · intro x hx y hy
      obtain rfl : ATok.op = y := by simpa using hy
      refine ⟨?_, fun _ => by simp⟩
      rintro rfl
      exfalso
      rw [List.getLast?_map] at hx
      obtain ⟨c, hc, he⟩ := Option.map_eq_some_iff.mp hx
      obtain rfl : c = '{' := by simpa using he
      obtain ⟨hne', hlast⟩ : ∃ h : s.1.dropLast ≠ [], s.1.dropLast.getLast h = '{' := by
        have hne' : s.1.dropLast ≠ [] := by intro e; rw [e] at hc; cases hc
        rw [List.getLast?_eq_some_getLast hne'] at hc
        exact ⟨hne', Option.some.inj hc⟩
      have h2 := (List.dropLast_concat_getLast hne').symm
      rw [hlast] at h2
      apply hs.1
      refine ⟨s.1.dropLast.dropLast, [], ?_⟩
      rw [hd]
      conv => rhs; rw [h2]
      simp
  · rename_i hl
    unfold plainTok
    refine adj_append _ _ (adj_lit _ hs) ⟨fun y _ => compat_op y, hkey⟩ ?_
    intro x hx y hy
    obtain rfl : ATok.op = y := by simpa using hy
    refine ⟨?_, fun _ => by simp⟩
    rintro rfl
    rw [List.getLast?_map] at hx
    obtain ⟨c, hc, he⟩ := Option.map_eq_some_iff.mp hx
    obtain rfl : c = '{' := by simpa using he
    exact absurd hc hl

theorem segTok_last (s : Text × Text) : (segTok s).getLast? = some .cl := by
  unfold segTok plainTok
  split <;> simp [List.getLast?_append, List.getLast?_cons]

theorem tmpl_adj (t : AmplTemplate) (hs : ∀ l ∈ t.literals, SingleBraces l) (hk : ∀ k ∈ t.labels, IsLabel k) : Adj (tmplTok t) := by
  unfold tmplTok
  unfold AmplTemplate.literals AmplTemplate.labels at *
  have hlast : Adj (t.last.map .ch) := adj_lit _ (hs t.last (by simp))
  revert hs hk
  generalize t.segs = segs
  intro hs hk
  induction segs with
  | nil => exact hlast
  | cons s segs ih =>
    rw [List.flatMap_cons, List.append_assoc]
    refine adj_append _ _ (adj_seg s (hs _ (by simp)) (hk _ (by simp))) (ih (fun l hl => hs l ?_) (fun k h => hk k ?_)) ?_
    · rw [List.map_cons, List.cons_append]
      exact List.mem_cons_of_mem _ hl
    · rw [List.map_cons]; exact List.mem_cons_of_mem _ h
    · intro x hx y hy
      rw [segTok_last] at hx
      cases hx
      exact compat_cl y

theorem tmpl_noMark (t : AmplTemplate) (h : ¬ amplMark <:+: t.source) : NoMark (tmplTok t) := by
  intro a b e
  apply h
  rw [← tmpl_source, e, List.flatMap_append, List.flatMap_append, flatMap_single]
  exact ⟨_, _, by rw [List.append_assoc]⟩

/-! ## `str.format` -/

theorem format_char (kw : Text → Option Text) (c : Char) (rest : Text) :
    formatGo kw none (atok ['{', '{'] ['}', '}'] ['{'] ['}'] (.ch c) ++ rest) = (formatGo kw none rest).map (c :: ·) := by
  by_cases h1 : c = '{'
  · subst h1
    change formatGo kw none ('{' :: '{' :: rest) = _
    rw [formatGo]
    simp
  · by_cases h2 : c = '}'
    · subst h2
      change formatGo kw none ('}' :: '}' :: rest) = _
      rw [formatGo]
      simp
    · rw [atok_plain _ _ _ _ h1 h2, List.singleton_append]
      conv => lhs; unfold formatGo
      simp only [if_neg h1, if_neg h2]

theorem format_lit (kw : Text → Option Text) (rest : Text) : ∀ (w : Text),
    formatGo kw none ((w.map .ch).flatMap (atok ['{', '{'] ['}', '}'] ['{'] ['}']) ++ rest) = (formatGo kw none rest).map (w ++ ·)
  | [] => by simp
  | c :: w => by
    rw [List.map_cons, List.flatMap_cons, List.append_assoc, format_char, format_lit kw rest w, Option.map_map]
    rfl

theorem format_name (kw : Text → Option Text) (rest : Text) : ∀ (k acc : Text), (∀ c ∈ k, c ≠ '{' ∧ c ≠ '}') →
    formatGo kw (some acc) (k ++ '}' :: rest) =
      (fieldValue kw (acc.reverse ++ k)).bind (fun v => (formatGo kw none rest).map (v ++ ·))
  | [], acc, _ => by
    rw [List.nil_append, formatGo, if_pos rfl, List.append_nil]
    cases fieldValue kw acc.reverse <;> rfl
  | c :: k, acc, h => by
    rw [List.cons_append, formatGo, if_neg (h c (by simp)).2, format_name kw rest k (c :: acc) (fun d hd => h d (by simp [hd]))]
    simp

theorem format_field (kw : Text → Option Text) (k rest : Text) (hk : IsLabel k) :
    formatGo kw none ('{' :: (k ++ '}' :: rest)) = (kw k).bind (fun v => (formatGo kw none rest).map (v ++ ·)) := by
  obtain ⟨⟨c, r, hcr, hdig⟩, -⟩ := id hk
  have hc := label_char hk (c := c) (by rw [hcr]; simp)
  have hv : fieldValue kw k = kw k := by
    unfold fieldValue
    rw [if_neg, if_neg]
    · simp only [List.any_eq_true, Bool.or_eq_true, beq_iff_eq, not_exists, not_and]
      intro d hd he
      have := hk.2 d hd
      rcases he with (((rfl | rfl) | rfl) | rfl) | rfl <;> exact absurd this (by decide)
    · rw [hcr]; simp [hdig]
  have hn := format_name kw rest k [] (fun d hd => label_char hk hd)
  rw [List.reverse_nil, List.nil_append, hv] at hn
  rw [← hn, hcr]
  simp only [List.cons_append]
  conv => lhs; unfold formatGo
  simp only [if_true]
  rw [if_neg hc.1]

theorem format_seg (kw : Text → Option Text) (rest : Text) (s : Text × Text) (hk : IsLabel s.2) :
    formatGo kw none ((segTok s).flatMap (atok ['{', '{'] ['}', '}'] ['{'] ['}']) ++ rest) =
      (kw s.2).bind (fun v => (formatGo kw none rest).map (fun r => s.1 ++ (v ++ r))) := by
  rw [seg_swap ['{', '{'] ['}', '}'] ['{'] ['}'] rfl]
  unfold plainTok
  rw [List.flatMap_append, List.append_assoc, format_lit, List.flatMap_cons, List.flatMap_append,
    flatMap_plain _ _ _ _ s.2 (fun c hc => label_char hk hc)]
  have e : atok ['{', '{'] ['}', '}'] ['{'] ['}'] .op ++ (s.2 ++ [ATok.cl].flatMap (atok ['{', '{'] ['}', '}'] ['{'] ['}'])) ++ rest =
      '{' :: (s.2 ++ '}' :: rest) := by simp [atok]
  rw [e, format_field kw _ _ hk]
  cases kw s.2 with
  | none => rfl
  | some v =>
    simp only [Option.bind_some, Option.map_map]
    rfl

/-- **C64.** In a text with substitutions, single braces are left alone and a label in doubled braces is replaced by the value of the
argument of that name, for every text that does not mention `ticdat_ampl_format`; braces may stand next to a substitution.  If an
argument is missing an exception is raised. -/
theorem ampl_format_exact (t : AmplTemplate) (hs : ∀ l ∈ t.literals, SingleBraces l) (hk : ∀ k ∈ t.labels, IsLabel k)
    (hm : ¬ "ticdat_ampl_format".toList <:+: t.source) (kw : Text → Option Text) :
    (∀ value : Text → Text, (∀ k ∈ t.labels, kw k = some (value k)) → amplFormat t.source kw = some (t.filled value)) ∧
    ((∃ k ∈ t.labels, kw k = none) → amplFormat t.source kw = none) := by
  have hno : ∀ m, amplMark <:+: m → occursIn m t.source = false := by
    intro m hsub
    rw [← Bool.not_eq_true, occursIn_iff]
    exact fun h => hm (hsub.trans h)
  have hl : occursIn amplLeft t.source = false := hno _ (by rw [left_eq]; exact ⟨['_'], ['_', '[', '_'], rfl⟩)
  have hr : occursIn amplRight t.source = false := hno _ (by rw [right_eq]; exact ⟨['_'], ['_', ']', '_'], rfl⟩)
  have hadj := tmpl_adj t hs hk
  have hmark := tmpl_noMark t hm
  have key : amplFormat t.source kw =
      formatGo kw none ((tmplTok t).flatMap (atok ['{', '{'] ['}', '}'] ['{'] ['}'])) := by
    unfold amplFormat
    rw [hl, hr]
    simp only [Bool.or_self, Bool.false_eq_true, if_false]
    rw [← tmpl_source, ampl_stage1 _ hadj, ampl_stage2 _ hadj, ampl_stage3, ampl_stage4, ampl_stage5 _ hmark, ampl_stage6 _ hmark]
  rw [key]
  unfold tmplTok AmplTemplate.filled
  unfold AmplTemplate.labels at *
  rw [List.flatMap_append]
  have hend := format_lit kw [] t.last
  rw [List.append_nil] at hend
  have hnil : formatGo kw none [] = some [] := by rw [formatGo]
  rw [hnil] at hend
  simp only [Option.map_some, List.append_nil] at hend
  clear key hmark hadj hr hl hno hm hs
  revert hk
  generalize t.segs = segs
  intro hk
  induction segs with
  | nil => simp [hend]
  | cons s segs ih =>
    obtain ⟨ih1, ih2⟩ := ih (fun k h => hk k (by rw [List.map_cons]; exact List.mem_cons_of_mem _ h))
    rw [List.flatMap_cons, List.flatMap_append, List.append_assoc, format_seg kw _ s (hk _ (by simp))]
    constructor
    · intro value hv
      rw [hv s.2 (by simp), Option.bind_some, ih1 value (fun k h => hv k (by rw [List.map_cons]; exact List.mem_cons_of_mem _ h))]
      simp
    · rintro ⟨k, hmem, hnone⟩
      rw [List.map_cons, List.mem_cons] at hmem
      rcases hmem with rfl | hmem
      · rw [hnone]; rfl
      · rw [ih2 ⟨k, hmem, hnone⟩]
        cases kw s.2 <;> rfl

/-- **C64, a finding.** The check that the text does not contain a marker does not suffice: a text can end, before a substitution, like
the beginning of a marker.  The substitution is then not performed. -/
theorem ampl_format_marker_overlap :
    amplFormat "_ticdat_ampl_format_[{{k}}".toList (fun _ => some "v".toList) ≠ some "_ticdat_ampl_format_[v".toList := by
  have e : replaceText amplRight ['}'] (replaceText amplLeft ['{'] (replaceText ['}'] ['}', '}'] (replaceText ['{'] ['{', '{']
      (replaceText ['}', '}'] amplRight (replaceText ['{', '{'] amplLeft "_ticdat_ampl_format_[{{k}}".toList))))) =
      "{ticdat_ampl_format_[_k}".toList := by decide +kernel
  unfold amplFormat
  simp only [e]
  rw [if_neg (by decide +kernel)]
  have h : "{ticdat_ampl_format_[_k}".toList = '{' :: 't' :: ("icdat_ampl_format_[_k".toList ++ '}' :: []) := by decide +kernel
  rw [h, formatGo, if_pos rfl, if_neg (by decide)]
  have h2 : 't' :: ("icdat_ampl_format_[_k".toList ++ '}' :: []) = "ticdat_ampl_format_[_k".toList ++ '}' :: [] := by decide +kernel
  rw [h2, format_name _ _ _ _ (by decide +kernel)]
  have h3 : fieldValue (fun _ => some "v".toList) ([].reverse ++ "ticdat_ampl_format_[_k".toList) = none := by decide +kernel
  rw [h3]
  simp

/-- A text with braces of all sorts. -/
def amplDemo : AmplTemplate := ⟨[("param cost {".toList, "set_1".toList), ("} >= 0; var ".toList, "x".toList)], " {J};".toList⟩

example : (∀ l ∈ amplDemo.literals, SingleBraces l) ∧ (∀ k ∈ amplDemo.labels, IsLabel k) ∧
    ¬ "ticdat_ampl_format".toList <:+: amplDemo.source := by
  refine ⟨?_, ?_, ?_⟩
  · unfold SingleBraces
    simp only [← occursIn_iff]
    decide +kernel
  · intro k h
    simp only [amplDemo, AmplTemplate.labels, List.map_cons, List.map_nil, List.mem_cons, List.not_mem_nil, or_false] at h
    rcases h with rfl | rfl
    · exact ⟨⟨'s', "et_1".toList, by decide +kernel, by decide⟩, by decide +kernel⟩
    · exact ⟨⟨'x', [], by decide +kernel, by decide⟩, by decide +kernel⟩
  · rw [← occursIn_iff]
    decide +kernel

end Ticdat
