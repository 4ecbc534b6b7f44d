import Verif.Lemmas.RelLanguage
import Verif.Props.Timezone
/-! Helper lemmas: texts in which no time zone can be seen. -/
set_option autoImplicit false
namespace Verif.Lemmas
open Verif.Go Verif.Model Verif.Data Verif.Spec

/-- An abbreviation begins here. -/
def nameAt (r : List Char) : Bool := namedZones.any fun z =>
  (z.1.map foldC).isPrefixOf r && (match (r.drop z.1.length).head? with
    | none => true
    | some d => !isWordC d)

/-- An abbreviation after a character that is not a letter. -/
def nameIn : List Char → Bool
  | [] => false
  | c :: r => (!c.isAlpha && nameAt r) || nameIn r

/-- Ends with ±hh:mm or ±hhmm. -/
def offsetEnd (s : List Char) : Bool :=
  match s.reverse with
  | a :: b :: c :: d :: e :: r =>
    a.isDigit && b.isDigit && ((c.isDigit && d.isDigit && (e == '+' || e == '-')) ||
      (c == ':' && d.isDigit && e.isDigit && (match r with
        | f :: _ => f == '+' || f == '-'
        | [] => false)))
  | _ => false

/-- The text may contain a time zone. -/
def mayHaveZone (s : List Char) : Bool :=
  nameIn s || containsStr "utc".toList s || containsStr "gmt".toList s || offsetEnd s

theorem nameIn_of_suffix {c : Char} {r : List Char} (h1 : c.isAlpha = false) (h2 : nameAt r = true) : ∀ (b : List Char), nameIn (b ++ c :: r) = true
  | [] => by simp [nameIn, h1, h2]
  | d :: b => by simp [nameIn, nameIn_of_suffix h1 h2 b]

theorem containsStr_of {p q : List Char} (w : List Char) : ∀ (p : List Char), containsStr w (p ++ (w ++ q)) = true
  | [] => by
    cases h : w ++ q with
    | nil =>
      have : w = [] := (List.append_eq_nil_iff.mp h).1
      subst this; rfl
    | cons c t =>
      have : w.isPrefixOf (c :: t) = true := by rw [← h]; simp [List.isPrefixOf_iff_prefix]
      simp only [List.nil_append, containsStr, this, Bool.true_or]
  | c :: p => by
    have := containsStr_of (q := q) w p (p := p)
    simp only [List.cons_append, containsStr, this, Bool.or_true]

theorem digitChar_digit {n : Nat} (h : n < 10) : (digitChar n).isDigit = true := by
  have : ∀ k : Fin 10, (digitChar k.val).isDigit = true := by decide
  exact this ⟨n, h⟩

theorem sign_plusminus (neg : Bool) : (signChar neg == '+' || signChar neg == '-') = true := by cases neg <;> decide

theorem offsetEnd_plain (b : List Char) (neg : Bool) {h m : Nat} (hh : h < 24) (hm : m < 60) (colon : Bool) :
    offsetEnd (b ++ signChar neg :: (two h ++ (if colon then [':'] else []) ++ two m)) = true := by
  have d1 := digitChar_digit (n := h / 10) (by omega)
  have d2 := digitChar_digit (n := h % 10) (by omega)
  have d3 := digitChar_digit (n := m / 10) (by omega)
  have d4 := digitChar_digit (n := m % 10) (by omega)
  have sg := sign_plusminus neg
  cases colon
  · have : (b ++ signChar neg :: (two h ++ [] ++ two m)).reverse =
        digitChar (m % 10) :: digitChar (m / 10) :: digitChar (h % 10) :: digitChar (h / 10) :: signChar neg :: b.reverse := by
      simp [two]
    simp only [offsetEnd, Bool.false_eq_true, if_false, this, d1, d2, d3, d4, sg, Bool.and_self, Bool.true_or]
  · have : (b ++ signChar neg :: (two h ++ [':'] ++ two m)).reverse =
        digitChar (m % 10) :: digitChar (m / 10) :: ':' :: digitChar (h % 10) :: digitChar (h / 10) :: signChar neg :: b.reverse := by
      simp [two]
    simp only [offsetEnd, if_true, this, d1, d2, d3, d4, sg]
    simp

theorem foldC_alpha_lower {c : Char} (h : foldC c = c) : (foldC c).isAlpha = c.isAlpha := by rw [h]

theorem map_fold {s : List Char} (h : ∀ c ∈ s, foldC c = c) : s.map foldC = s := by
  induction s with
  | nil => rfl
  | cons c s ih => simp only [List.map_cons, h c (by simp), ih fun x hx => h x (by simp [hx])]

theorem no_sight {s : List Char} (hf : ∀ c ∈ s, foldC c = c) (h : mayHaveZone s = false) : ∀ g o, ¬ Sees s g o := by
  rintro ⟨b, c, z, nx, rest⟩ o ⟨rfl, hs⟩
  simp only [mayHaveZone, Bool.or_eq_false_iff] at h
  obtain ⟨⟨⟨h1, h2⟩, h3⟩, h4⟩ := h
  simp only [Sight.text] at *
  have hz : z.map foldC = z := map_fold fun x hx => hf x (by simp [hx])
  rcases hs with ⟨_, hn, hr, neg, hh, m, ⟨k1, k2, _⟩, ht, _⟩ | ⟨hc, hn, name, hm, hw⟩
  · dsimp only at hn hr ht
    subst hn hr
    have utc : ∀ (p q : List Char), UtcOrGmt p → (∀ x ∈ p, foldC x = x) → z = p ++ q → False := by
      intro p q hp hpf e
      subst e
      have e1 : b ++ c :: (p ++ q ++ (none : Option Char).toList ++ []) = (b ++ [c]) ++ (p ++ q) := by simp
      rw [e1] at h2 h3
      rcases hp with hp | hp
      · have : p = "utc".toList := by
          rw [← map_fold hpf]; rw [SameText] at hp; rw [hp]; decide
        rw [this, containsStr_of (p := [])] at h2; simp at h2
      · have : p = "gmt".toList := by
          rw [← map_fold hpf]; rw [SameText] at hp; rw [hp]; decide
        rw [this, containsStr_of (p := [])] at h3; simp at h3
    have hzf : ∀ x ∈ z, foldC x = x := fun x hx => hf x (by simp [hx])
    cases ht with
    | plain colon =>
      have := offsetEnd_plain (b ++ [c]) neg k1 k2 colon
      simp only [Option.toList_none, List.append_nil] at h4
      rw [List.append_assoc, List.singleton_append] at this
      rw [this] at h4; simp at h4
    | full p hp colon tail _ => exact utc p _ hp (fun x hx => hzf x (by simp [hx])) rfl
    | hours p hp _ => exact utc p _ hp (fun x hx => hzf x (by simp [hx])) rfl
    | short p hp _ _ => exact utc p _ hp (fun x hx => hzf x (by simp [hx])) rfl
    | shortMin p hp _ => exact utc p _ hp (fun x hx => hzf x (by simp [hx])) rfl
  · dsimp only at hc hn hw
    have hcc : c.isAlpha = false := by rw [← hf c (by simp)]; exact hc
    have hzn : z = name.map foldC := by rw [← hz]; exact hw
    have hlen : z.length = name.length := by rw [hzn]; simp
    have : nameAt (z ++ nx.toList ++ rest) = true := by
      simp only [nameAt, List.any_eq_true]
      refine ⟨(name, o), hm, ?_⟩
      have hpre : (name.map foldC).isPrefixOf (z ++ nx.toList ++ rest) = true := by
        rw [← hzn, List.append_assoc]; simp [List.isPrefixOf_iff_prefix]
      have hdrop : (z ++ nx.toList ++ rest).drop name.length = nx.toList ++ rest := by
        rw [List.append_assoc, List.drop_left' hlen]
      dsimp only
      rw [hpre, hdrop, Bool.true_and]
      cases nx with
      | none => dsimp only at hn; subst hn; rfl
      | some d =>
        dsimp only at hn
        have : foldC d = d := hf d (by simp)
        rw [this] at hn
        simp [hn]
    rw [nameIn_of_suffix hcc this b] at h1
    simp at h1

theorem pop_none {t : List TzEntry} (ht : IsTable t) {s : List Char} (hf : ∀ c ∈ s, foldC c = c) (h : mayHaveZone s = false) :
    popTzOffset t s = (s, none) := by
  have hp := Props.C20_pop ht s
  cases e : popTzOffset t s with
  | mk l z =>
    rw [e] at hp
    cases z with
    | none => rw [hp.1]
    | some z =>
      obtain ⟨g, hg, _⟩ := hp
      exact absurd hg (no_sight hf h g _)

/-- The same for texts with capital letters. -/
theorem no_sight_fold {s : List Char} (h : mayHaveZone (s.map foldC) = false) : ∀ g o, ¬ Sees s g o := by
  rintro ⟨b, c, z, nx, rest⟩ o ⟨rfl, hs⟩
  simp only [mayHaveZone, Bool.or_eq_false_iff] at h
  obtain ⟨⟨⟨h1, h2⟩, h3⟩, h4⟩ := h
  simp only [Sight.text, List.map_append, List.map_cons] at *
  rcases hs with ⟨_, hn, hr, neg, hh, m, ⟨k1, k2, _⟩, ht, _⟩ | ⟨hc, hn, name, hm, hw⟩
  · dsimp only at hn hr ht
    subst hn hr
    have utc : ∀ (p q : List Char), UtcOrGmt p → z = p ++ q → False := by
      intro p q hp e
      subst e
      have e1 : b.map foldC ++ foldC c :: ((p ++ q).map foldC ++ (none : Option Char).toList.map foldC ++ [].map foldC) =
          (b.map foldC ++ [foldC c]) ++ (p.map foldC ++ q.map foldC) := by simp
      rw [e1] at h2 h3
      rcases hp with hp | hp
      · have : p.map foldC = "utc".toList := by rw [SameText] at hp; rw [hp]; decide
        rw [this, containsStr_of (p := [])] at h2; simp at h2
      · have : p.map foldC = "gmt".toList := by rw [SameText] at hp; rw [hp]; decide
        rw [this, containsStr_of (p := [])] at h3; simp at h3
    cases ht with
    | plain colon =>
      have := offsetEnd_plain (b.map foldC ++ [foldC c]) neg k1 k2 colon
      have dg : ∀ n, n < 10 → foldC (digitChar n) = digitChar n := by
        intro n hn
        have : ∀ k : Fin 10, foldC (digitChar k.val) = digitChar k.val := by decide
        exact this ⟨n, hn⟩
      have e0 : (signChar neg :: (two hh ++ (if colon then [':'] else []) ++ two m)).map foldC =
          signChar neg :: (two hh ++ (if colon then [':'] else []) ++ two m) := by
        have hsg : foldC (signChar neg) = signChar neg := by cases neg <;> decide
        have hcl : foldC ':' = ':' := by decide
        have a1 := dg (hh / 10) (by omega)
        have a2 := dg (hh % 10) (by omega)
        have a3 := dg (m / 10) (by omega)
        have a4 := dg (m % 10) (by omega)
        cases colon <;> simp [two, hsg, hcl, a1, a2, a3, a4]
      rw [e0] at h4
      simp only [Option.toList_none, List.append_nil, List.map_nil] at h4
      rw [List.append_assoc, List.singleton_append] at this
      rw [this] at h4; simp at h4
    | full p hp colon tail _ => exact utc p _ hp rfl
    | hours p hp _ => exact utc p _ hp rfl
    | short p hp _ _ => exact utc p _ hp rfl
    | shortMin p hp _ => exact utc p _ hp rfl
  · dsimp only at hc hn hw
    have hzn : z.map foldC = name.map foldC := hw
    have hlen : (z.map foldC).length = name.length := by rw [hzn]; simp
    have : nameAt (z.map foldC ++ nx.toList.map foldC ++ rest.map foldC) = true := by
      simp only [nameAt, List.any_eq_true]
      refine ⟨(name, o), hm, ?_⟩
      have hpre : (name.map foldC).isPrefixOf (z.map foldC ++ nx.toList.map foldC ++ rest.map foldC) = true := by
        rw [← hzn, List.append_assoc]; simp [List.isPrefixOf_iff_prefix]
      have hdrop : (z.map foldC ++ nx.toList.map foldC ++ rest.map foldC).drop name.length = nx.toList.map foldC ++ rest.map foldC := by
        rw [List.append_assoc, List.drop_left' hlen]
      dsimp only
      rw [hpre, hdrop, Bool.true_and]
      cases nx with
      | none => dsimp only at hn; subst hn; rfl
      | some d => dsimp only at hn; simp [hn]
    rw [nameIn_of_suffix hc this (b.map foldC)] at h1
    simp at h1

theorem pop_none_fold {t : List TzEntry} (ht : IsTable t) {s : List Char} (h : mayHaveZone (s.map foldC) = false) :
    popTzOffset t s = (s, none) := by
  have hp := Props.C20_pop ht s
  cases e : popTzOffset t s with
  | mk l z =>
    rw [e] at hp
    cases z with
    | none => rw [hp.1]
    | some z =>
      obtain ⟨g, hg, _⟩ := hp
      exact absurd hg (no_sight_fold h g _)

/-! ## Other digits -/

variable {R : Char → Char → Prop}

theorem containsStr_rel (hR : DigitRel R) {w : List Char} (hw : digitFree w = true) {s t : List Char} (h : Rel2 R s t) :
    containsStr w s = containsStr w t := by
  induction h with
  | nil => rfl
  | cons h1 h2 ih => simp only [containsStr, prefix_rel hR hw (.cons h1 h2), ih]

theorem isWordC_rel (hR : DigitRel R) : ∀ x y, R x y → isWordC x = isWordC y :=
  hR.cls (b := true) fun c h => by simp [isWordC, Char.isAlphanum, h]

theorem isAlpha_digit {c : Char} (h : c.isDigit = true) : c.isAlpha = false := by
  have := digit_range h
  simp only [Char.isAlpha, Char.isUpper, Char.isLower, Bool.or_eq_false_iff, Bool.and_eq_false_iff, decide_eq_false_iff_not]
  constructor
  · intro hh; have : 65 ≤ c.toNat := hh.1; omega
  · left; show ¬ 97 ≤ c.toNat; omega

theorem zones_digitFree : ∀ z ∈ namedZones, digitFree (z.1.map foldC) = true := by decide +kernel

theorem nameAt_rel (hR : DigitRel R) {s t : List Char} (h : Rel2 R s t) : nameAt s = nameAt t := by
  unfold nameAt
  have hz := zones_digitFree
  generalize namedZones = l at hz
  induction l with
  | nil => rfl
  | cons z l ih =>
    simp only [List.any_cons, ih fun x hx => hz x (by simp [hx]), prefix_rel hR (hz z (by simp)) h]
    have := (h.drop z.1.length).head?
    revert this
    cases (s.drop z.1.length).head? <;> cases (t.drop z.1.length).head? <;> intro this <;> cases this
    · rfl
    · rename_i h; simp only [isWordC_rel hR _ _ h]

theorem nameIn_rel (hR : DigitRel R) {s t : List Char} (h : Rel2 R s t) : nameIn s = nameIn t := by
  induction h with
  | nil => rfl
  | cons h1 h2 ih => simp only [nameIn, ih, nameAt_rel hR h2, hR.cls (p := Char.isAlpha) (fun _ h => isAlpha_digit h) _ _ h1]

theorem beqc_rel (hR : DigitRel R) {c : Char} (hc : c.isDigit = false) {x y : Char} (h : R x y) : (x == c) = (y == c) := by
  rw [Bool.eq_iff_iff]; simpa using hR.eqc hc x y h

theorem offsetEnd_rel (hR : DigitRel R) {s t : List Char} (h : Rel2 R s t) : offsetEnd s = offsetEnd t := by
  unfold offsetEnd
  have hr := h.reverse
  generalize s.reverse = u at hr
  generalize t.reverse = v at hr
  cases hr with
  | nil => rfl
  | cons a1 hr => cases hr with
    | nil => rfl
    | cons a2 hr => cases hr with
      | nil => rfl
      | cons a3 hr => cases hr with
        | nil => rfl
        | cons a4 hr => cases hr with
          | nil => rfl
          | cons a5 hr =>
            simp only [hR.isDigit _ _ a1, hR.isDigit _ _ a2, hR.isDigit _ _ a3, hR.isDigit _ _ a4, hR.isDigit _ _ a5,
              beqc_rel hR (c := ':') (by decide) a3, beqc_rel hR (c := '+') (by decide) a5, beqc_rel hR (c := '-') (by decide) a5]
            cases hr with
            | nil => rfl
            | cons a6 _ => simp only [beqc_rel hR (c := '+') (by decide) a6, beqc_rel hR (c := '-') (by decide) a6]

theorem mayHaveZone_rel (hR : DigitRel R) {s t : List Char} (h : Rel2 R s t) : mayHaveZone s = mayHaveZone t := by
  unfold mayHaveZone
  rw [nameIn_rel hR h, containsStr_rel hR (by decide) h, containsStr_rel hR (by decide) h, offsetEnd_rel hR h]

theorem foldC_isDigit {c : Char} (h : c.isDigit = true) : foldC c = c := by
  have hr := digit_range h
  have e : c = Char.ofNat (48 + (c.toNat - 48)) := by
    rw [show 48 + (c.toNat - 48) = c.toNat by omega, Char.ofNat_toNat]
  have key : ∀ n : Fin 10, foldC (Char.ofNat (48 + n.val)) = Char.ofNat (48 + n.val) := by decide
  have := key ⟨c.toNat - 48, by omega⟩
  dsimp only at this
  rwa [← e] at this

theorem folded_rel (hR : DigitRel R) {s t : List Char} (h : Rel2 R s t) (hs : (s.all fun c => foldC c == c) = true) : ∀ c ∈ t, foldC c = c := by
  have := (h.all (p := fun c => foldC c == c) (q := fun c => foldC c == c) (hR.cls (b := true) fun c hc => by simp [foldC_isDigit hc])).symm
  rw [hs] at this
  simpa using this

theorem pop_none_rel (hR : DigitRel R) {tb : List TzEntry} (ht : IsTable tb) {s t : List Char} (h : Rel2 R s t)
    (hf : (s.all fun c => foldC c == c) = true) (hz : mayHaveZone s = false) : popTzOffset tb t = (t, none) :=
  pop_none ht (folded_rel hR h hf) (by rw [← mayHaveZone_rel hR h]; exact hz)

end Verif.Lemmas
