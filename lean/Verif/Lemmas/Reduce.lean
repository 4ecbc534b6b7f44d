import Verif.Lemmas.Refuse
/-!
Helper lemmas: the data of a locale restricted to what can matter for texts over a given alphabet.
-/
set_option autoImplicit false
namespace Verif.Lemmas
open Verif.Go Verif.Model Verif.Data Verif.Spec

deriving instance DecidableEq for Tmpl
deriving instance DecidableEq for LangData

/-- Characters, as intervals of code points. -/
abbrev Alphabet := List (Nat × Nat)

def inK (K : Alphabet) (c : Char) : Bool := K.any fun i => decide (i.1 ≤ c.toNat) && decide (c.toNat ≤ i.2)
def over (K : Alphabet) (s : List Char) : Bool := s.all (inK K)
/-- Whether a range has characters in common with the alphabet. -/
def meets (K : Alphabet) (lo hi : Char) : Bool := K.any fun i => decide (i.1 ≤ hi.toNat) && decide (lo.toNat ≤ i.2)
/-- Whether a character of the alphabet is equal to this one but for case. -/
def foldIn (K : Alphabet) (c : Char) : Bool :=
  inK K c || inK K c.toLower || inK K c.toUpper || ((c == 'k' || c == 'K') && inK K '\u212a') || ((c == 's' || c == 'S') && inK K '\u017f')

/-- Matches nothing. -/
def failPat : Pat := .cls false []
def Pat.dead : Pat → Bool
  | .cls false [] => true
  | _ => false

def mkSeq (a b : Pat) : Pat := if Pat.dead a then failPat else if Pat.dead b then failPat else .seq a b
def mkAlt (a b : Pat) : Pat := if Pat.dead a then b else if Pat.dead b then a else .alt a b

/-- The pattern without what cannot match in texts over the alphabet. -/
def prune (K : Alphabet) : Pat → Pat
  | .lit s => if s.all (foldIn K) then .lit s else failPat
  | .cls neg items => if !neg && items.all (fun
      | .rng lo hi => !meets K lo hi
      | _ => false) then failPat else .cls neg items
  | .seq a b => mkSeq (prune K a) (prune K b)
  | .alt a b => mkAlt (prune K a) (prune K b)
  | .opt a => if Pat.dead (prune K a) then .eps else .opt (prune K a)
  | .star a => if Pat.dead (prune K a) then .eps else .star (prune K a)
  | .grp n a => if Pat.dead (prune K a) then failPat else .grp n (prune K a)
  | p => p

def pruneRules (K : Alphabet) (l : List (Pat × List Tmpl)) : List (Pat × List Tmpl) :=
  (l.map fun x => (prune K x.1, x.2)).filter fun x => !Pat.dead x.1

/-- The data of a locale restricted to texts over an alphabet. -/
def reduce (K : Alphabet) (d : LangData) : LangData where
  name := d.name
  noWordSpacing := d.noWordSpacing
  simplifications := pruneRules K d.simplifications
  translations := d.translations.filter fun x => over K x.1
  relativeType := d.relativeType.filter fun x => over K x.1
  relativeRegexes := pruneRules K d.relativeRegexes
  rxCombined := d.rxCombined.map fun x => (prune K x.1, x.2)
  rxExact := d.rxExact.map (prune K)
  knownWords := d.knownWords.filter (over K)

/-- Replacements of simplifications stay in the alphabet. -/
def closed (K : Alphabet) (d : LangData) : Bool :=
  d.simplifications.all fun x => x.2.all fun
    | .lit s => over K s
    | .ref _ => true

/-! ## Characters of the alphabet -/

theorem over_mem {K : Alphabet} {s : List Char} (h : over K s = true) : ∀ c ∈ s, inK K c = true := List.all_eq_true.mp h
theorem over_of {K : Alphabet} {s : List Char} (h : ∀ c ∈ s, inK K c = true) : over K s = true := List.all_eq_true.mpr h
theorem over_sub {K : Alphabet} {s t : List Char} (h : over K s = true) (hs : ∀ c ∈ t, c ∈ s) : over K t = true := over_of fun c hc => over_mem h c (hs c hc)
theorem over_append {K : Alphabet} {s t : List Char} : over K (s ++ t) = true ↔ over K s = true ∧ over K t = true := by simp [over, List.all_append]
theorem over_cons {K : Alphabet} {c : Char} {t : List Char} : over K (c :: t) = true ↔ inK K c = true ∧ over K t = true := by simp [over]
theorem over_flatMap {α : Type} {K : Alphabet} {l : List α} {f : α → List Char} (h : ∀ x ∈ l, over K (f x) = true) : over K (l.flatMap f) = true := by
  refine over_of fun c hc => ?_
  obtain ⟨x, hx, hc⟩ := List.mem_flatMap.mp hc
  exact over_mem (h x hx) c hc

theorem fold_in {K : Alphabet} {c d : Char} (h : foldEq c d = true) (hd : inK K d = true) : foldIn K c = true := by
  unfold foldEq at h
  simp only [Bool.or_eq_true, Bool.and_eq_true, beq_iff_eq] at h
  unfold foldIn
  simp only [Bool.or_eq_true, Bool.and_eq_true, beq_iff_eq]
  rcases h with (((rfl | rfl) | rfl) | ⟨h, rfl⟩) | ⟨h, rfl⟩
  · exact Or.inl (Or.inl (Or.inl (Or.inl hd)))
  · exact Or.inl (Or.inl (Or.inl (Or.inr hd)))
  · exact Or.inl (Or.inl (Or.inr hd))
  · exact Or.inl (Or.inr ⟨h, hd⟩)
  · exact Or.inr ⟨h, hd⟩

theorem meets_of {K : Alphabet} {lo hi c : Char} (h1 : lo ≤ c) (h2 : c ≤ hi) (hc : inK K c = true) : meets K lo hi = true := by
  unfold inK at hc
  unfold meets
  rw [List.any_eq_true] at hc ⊢
  obtain ⟨i, hi', h⟩ := hc
  refine ⟨i, hi', ?_⟩
  have a1 : lo.toNat ≤ c.toNat := h1
  have a2 : c.toNat ≤ hi.toNat := h2
  simp only [Bool.and_eq_true, decide_eq_true_eq] at h ⊢
  omega

/-! ## Pruned patterns match the same -/

theorem fail_run (U : Uni) (s : MSt) : (failPat.toRx U).run s = [] := by
  unfold failPat Pat.toRx Rx.run
  split
  · simp
  · rfl

theorem dead_eq {p : Pat} (h : Pat.dead p = true) : p = failPat := by
  cases p <;> simp_all [Pat.dead]
  rename_i n i
  cases n <;> cases i <;> simp_all [failPat]

theorem run_over {K : Alphabet} {r : Rx} {s t : MSt} (h : t ∈ r.run s) (hs : over K s.rest = true) : over K t.rest = true := by
  obtain ⟨w, e⟩ := r.run_suffix s t h
  rw [e] at hs
  exact (over_append.mp hs).2

theorem lit_run_fail {K : Alphabet} : ∀ (l : List Char), l.all (foldIn K) = false → ∀ s : MSt, over K s.rest = true → (litRx l).run s = [] := by
  have one : ∀ (c : Char), foldIn K c = false → ∀ s : MSt, over K s.rest = true → (Rx.chr (foldEq c)).run s = [] := by
    intro c hc s hs
    unfold Rx.run
    split
    · rename_i d r hr
      rw [hr] at hs
      rw [if_neg]
      intro h
      rw [fold_in h (over_cons.mp hs).1] at hc
      cases hc
    · rfl
  intro l
  induction l with
  | nil => intro h; simp at h
  | cons c l ih =>
    intro h s hs
    cases l with
    | nil => exact one c (by simpa using h) s hs
    | cons d l =>
      have e : (litRx (c :: d :: l)).run s = ((Rx.chr (foldEq c)).run s).flatMap (litRx (d :: l)).run := rfl
      rw [e]
      rw [List.all_cons, Bool.and_eq_false_iff] at h
      rcases h with h | h
      · rw [one c h s hs]; rfl
      · rw [List.flatMap_eq_nil_iff]
        intro t ht
        exact ih h t (run_over ht hs)

theorem flatMap_eq {α β : Type} {l : List α} {f g : α → List β} (h : ∀ x ∈ l, f x = g x) : l.flatMap f = l.flatMap g := by
  induction l with
  | nil => rfl
  | cons x l ih => rw [List.flatMap_cons, List.flatMap_cons, h x (by simp), ih fun y hy => h y (by simp [hy])]

theorem starRun_congr {K : Alphabet} {f g : MSt → List MSt} (h : ∀ s, over K s.rest = true → f s = g s)
    (hf : ∀ s t, t ∈ f s → over K s.rest = true → over K t.rest = true) :
    ∀ (n : Nat) (s : MSt), over K s.rest = true → starRun f n s = starRun g n s := by
  intro n
  induction n with
  | zero => intro s _; rfl
  | succ n ih =>
    intro s hs
    unfold starRun
    rw [← h s hs]
    congr 1
    refine flatMap_eq fun t ht => ?_
    exact ih t (hf s t (List.mem_filter.mp ht).1 hs)

theorem flatMap_congr' {K : Alphabet} {r : Rx} {f g : MSt → List MSt} (h : ∀ s, over K s.rest = true → f s = g s) {s : MSt} (hs : over K s.rest = true) :
    (r.run s).flatMap f = (r.run s).flatMap g := flatMap_eq fun t ht => h t (run_over ht hs)

theorem prune_run (K : Alphabet) (U : Uni) : ∀ (p : Pat) (s : MSt), over K s.rest = true → ((prune K p).toRx U).run s = (p.toRx U).run s := by
  intro p
  induction p with
  | eps => intro s _; rfl
  | bos => intro s _; rfl
  | eos => intro s _; rfl
  | lit l =>
    intro s hs
    unfold prune
    split
    · rfl
    · rename_i h
      rw [fail_run]
      exact (lit_run_fail l (by simpa using h) s hs).symm
  | cls neg items =>
    intro s hs
    unfold prune
    split
    · rename_i h
      rw [fail_run]
      simp only [Bool.and_eq_true, Bool.not_eq_true', List.all_eq_true] at h
      obtain ⟨rfl, h⟩ := h
      unfold Pat.toRx Rx.run
      split
      · rename_i d r hr
        rw [hr] at hs
        rw [if_neg]
        simp only [bne_iff_ne, ne_eq, Bool.not_eq_false, Bool.not_eq_true, Decidable.not_not, List.any_eq_false]
        intro i hi
        have := h i hi
        cases i with
        | rng lo hi' =>
          rw [Bool.eq_false_iff]
          intro hh
          simp only [CItem.has, Bool.and_eq_true, decide_eq_true_eq] at hh
          obtain ⟨h1, h2⟩ := hh
          simp only [meets_of h1 h2 (over_cons.mp hs).1] at this
          cases this
        | digit => simp at this
        | space => simp at this
        | letter => simp at this
        | mark => simp at this
      · rfl
    · rfl
  | seq a b iha ihb =>
    intro s hs
    have e : ((Pat.seq a b).toRx U).run s = ((a.toRx U).run s).flatMap (b.toRx U).run := rfl
    unfold prune mkSeq
    rw [e]
    split
    · rename_i h
      rw [← iha s hs, dead_eq h, fail_run]; rfl
    · split
      · rename_i h
        have : ∀ t, over K t.rest = true → (b.toRx U).run t = [] := by
          intro t ht
          rw [← ihb t ht, dead_eq h, fail_run]
        rw [fail_run, flatMap_congr' this hs]
        simp
      · show (((prune K a).toRx U).run s).flatMap ((prune K b).toRx U).run = _
        rw [iha s hs]
        exact flatMap_congr' ihb hs
  | alt a b iha ihb =>
    intro s hs
    have e : ((Pat.alt a b).toRx U).run s = (a.toRx U).run s ++ (b.toRx U).run s := rfl
    unfold prune mkAlt
    rw [e, ← iha s hs, ← ihb s hs]
    split
    · rename_i h
      rw [dead_eq h, fail_run]; rfl
    · split
      · rename_i h
        rw [dead_eq h, fail_run, List.append_nil]
      · rfl
  | opt a iha =>
    intro s hs
    have e : ((Pat.opt a).toRx U).run s = (a.toRx U).run s ++ [s] := rfl
    unfold prune
    rw [e, ← iha s hs]
    split
    · rename_i h
      rw [dead_eq h, fail_run]; rfl
    · rfl
  | star a iha =>
    intro s hs
    have e : ((Pat.star a).toRx U).run s = starRun (a.toRx U).run s.rest.length s := rfl
    have e' : starRun (a.toRx U).run s.rest.length s = starRun ((prune K a).toRx U).run s.rest.length s :=
      starRun_congr (fun t ht => (iha t ht).symm) (fun s t ht hs => run_over ht hs) _ s hs
    unfold prune
    rw [e, e']
    split
    · rename_i h
      rw [dead_eq h]
      show [s] = _
      cases s.rest.length with
      | zero => rfl
      | succ n => unfold starRun; rw [fail_run]; rfl
    · rfl
  | grp n a iha =>
    intro s hs
    unfold prune
    split
    · rename_i h
      show _ = ((a.toRx U).run s).map _
      rw [← iha s hs, dead_eq h, fail_run]; rfl
    · show (((prune K a).toRx U).run s).map _ = ((a.toRx U).run s).map _
      rw [iha s hs]

/-! ## Searching -/

/-- Two patterns that match the same in texts over the alphabet. -/
def SameRun (K : Alphabet) (r q : Rx) : Prop := ∀ s : MSt, over K s.rest = true → r.run s = q.run s

theorem prune_same (K : Alphabet) (U : Uni) (p : Pat) : SameRun K ((prune K p).toRx U) (p.toRx U) := prune_run K U p

theorem SameRun.find {K : Alphabet} {r q : Rx} (h : SameRun K r q) : ∀ (s : List Char), over K s = true → ∀ prev, r.find prev s = q.find prev s := by
  intro s
  induction s with
  | nil =>
    intro hs prev
    unfold Rx.find
    rw [h ⟨prev, [], []⟩ rfl]
  | cons c s ih =>
    intro hs prev
    unfold Rx.find
    rw [h ⟨prev, c :: s, []⟩ hs, ih (over_cons.mp hs).2]

theorem SameRun.matches {K : Alphabet} {r q : Rx} (h : SameRun K r q) {s : List Char} (hs : over K s = true) : r.matches s = q.matches s := by
  unfold Rx.matches; rw [h.find s hs]

/-- The groups captured are pieces of the text. -/
def CapsOver (K : Alphabet) (t : MSt) : Prop := ∀ x ∈ t.caps, over K x.2 = true

theorem starRun_over {K : Alphabet} {f : MSt → List MSt} (hf : ∀ s t, t ∈ f s → over K s.rest = true → CapsOver K s → over K t.rest = true ∧ CapsOver K t) :
    ∀ (n : Nat) (s t : MSt), t ∈ starRun f n s → over K s.rest = true → CapsOver K s → CapsOver K t := by
  intro n
  induction n with
  | zero => intro s t h _ hc; simp [starRun] at h; exact h ▸ hc
  | succ n ih =>
    intro s t h hs hc
    simp only [starRun, List.mem_append, List.mem_flatMap, List.mem_filter, List.mem_singleton] at h
    rcases h with ⟨u, ⟨hu, _⟩, h2⟩ | rfl
    · have := hf s u hu hs hc
      exact ih u t h2 this.1 this.2
    · exact hc

theorem run_caps_over {K : Alphabet} : ∀ (r : Rx) (s t : MSt), t ∈ r.run s → over K s.rest = true → CapsOver K s → CapsOver K t := by
  intro r
  induction r with
  | eps => intro s t h _ hc; simp [Rx.run] at h; exact h ▸ hc
  | chr p =>
    intro s t h _ hc
    unfold Rx.run at h
    split at h
    · split at h
      · simp at h; subst h; exact hc
      · simp at h
    · simp at h
  | seq a b iha ihb =>
    intro s t h hs hc
    simp only [Rx.run, List.mem_flatMap] at h
    obtain ⟨u, hu, h⟩ := h
    exact ihb u t h (run_over hu hs) (iha s u hu hs hc)
  | alt a b iha ihb =>
    intro s t h hs hc
    simp only [Rx.run, List.mem_append] at h
    rcases h with h | h
    · exact iha s t h hs hc
    · exact ihb s t h hs hc
  | opt a iha =>
    intro s t h hs hc
    simp only [Rx.run, List.mem_append, List.mem_singleton] at h
    rcases h with h | rfl
    · exact iha s t h hs hc
    · exact hc
  | star a iha =>
    intro s t h hs hc
    exact starRun_over (fun s t ht hs hc => ⟨run_over ht hs, iha s t ht hs hc⟩) _ s t h hs hc
  | grp n a iha =>
    intro s t h hs hc
    simp only [Rx.run, List.mem_map] at h
    obtain ⟨u, hu, rfl⟩ := h
    intro x hx
    rcases List.mem_cons.mp hx with rfl | hx
    · exact over_sub hs fun c hc => List.mem_of_mem_take hc
    · exact iha s u hu hs hc x hx
  | bos => intro s t h _ hc; unfold Rx.run at h; split at h <;> simp at h; exact h ▸ hc
  | eos => intro s t h _ hc; unfold Rx.run at h; split at h <;> simp at h; exact h ▸ hc
  | wb => intro s t h _ hc; unfold Rx.run at h; split at h <;> simp at h; exact h ▸ hc

structure MatchOver (K : Alphabet) (m : RxMatch) : Prop where
  before : over K m.before = true
  text : over K m.text = true
  rest : over K m.after.rest = true
  caps : CapsOver K m.after

theorem find_over {K : Alphabet} {r : Rx} : ∀ (s : List Char), over K s = true → ∀ (prev : Option Char) (m : RxMatch), r.find prev s = some m → MatchOver K m := by
  intro s
  induction s with
  | nil =>
    intro hs prev m h
    unfold Rx.find at h
    split at h
    · rename_i t l ht
      cases h
      have ht' : t ∈ r.run ⟨prev, [], []⟩ := by rw [ht]; simp
      exact ⟨rfl, rfl, run_over ht' rfl, run_caps_over r _ _ ht' rfl (fun x hx => by cases hx)⟩
    · cases h
  | cons c s ih =>
    intro hs prev m h
    unfold Rx.find at h
    split at h
    · rename_i t l ht
      cases h
      have ht' : t ∈ r.run ⟨prev, c :: s, []⟩ := by rw [ht]; simp
      exact ⟨rfl, over_sub hs fun c hc => List.mem_of_mem_take hc, run_over ht' hs, run_caps_over r _ _ ht' hs (fun x hx => by cases hx)⟩
    · simp only [Option.map_eq_some_iff] at h
      obtain ⟨m', hm, rfl⟩ := h
      have := ih (over_cons.mp hs).2 _ m' hm
      exact ⟨over_cons.mpr ⟨(over_cons.mp hs).1, this.before⟩, this.text, this.rest, this.caps⟩

theorem cap_over {K : Alphabet} {t : MSt} (h : CapsOver K t) (n : Nat) : over K (t.cap n) = true := by
  unfold MSt.cap
  cases e : t.caps.find? (·.1 == n) with
  | none => rfl
  | some x => exact h x (List.mem_of_find?_eq_some e)

theorem SameRun.findAllFuel {K : Alphabet} {r q : Rx} (h : SameRun K r q) : ∀ (n : Nat) (prev : Option Char) (s : List Char), over K s = true →
    r.findAllFuel n prev s = q.findAllFuel n prev s := by
  intro n
  induction n with
  | zero => intro prev s _; rfl
  | succ n ih =>
    intro prev s hs
    unfold Rx.findAllFuel
    rw [h.find s hs]
    cases e : q.find prev s with
    | none => rfl
    | some m =>
      have hm := find_over s hs prev m e
      simp only [ih _ _ hm.rest]

theorem findAll_over {K : Alphabet} {r : Rx} : ∀ (n : Nat) (prev : Option Char) (s : List Char), over K s = true →
    (∀ m ∈ (r.findAllFuel n prev s).1, MatchOver K m) ∧ over K (r.findAllFuel n prev s).2 = true := by
  intro n
  induction n with
  | zero => intro prev s hs; exact ⟨fun _ h => absurd h List.not_mem_nil, hs⟩
  | succ n ih =>
    intro prev s hs
    unfold Rx.findAllFuel
    cases e : r.find prev s with
    | none => exact ⟨fun _ h => absurd h List.not_mem_nil, hs⟩
    | some m =>
      have hm := find_over s hs prev m e
      simp only
      split
      · exact ⟨fun _ h => absurd h List.not_mem_nil, hs⟩
      · have := ih m.after.prev m.after.rest hm.rest
        refine ⟨fun x hx => ?_, this.2⟩
        rcases List.mem_cons.mp hx with rfl | hx
        · exact hm
        · exact this.1 x hx

theorem SameRun.replace {K : Alphabet} {r q : Rx} (h : SameRun K r q) (t : List Tmpl) {s : List Char} (hs : over K s = true) :
    replaceAllTmpl r t s = replaceAllTmpl q t s := by
  unfold replaceAllTmpl Rx.findAll
  rw [h.findAllFuel _ _ s hs]

def tmplOver (K : Alphabet) (t : List Tmpl) : Bool := t.all fun
  | .lit s => over K s
  | .ref _ => true

theorem expand_over {K : Alphabet} {t : List Tmpl} (ht : tmplOver K t = true) {m : MSt} (hm : CapsOver K m) : over K (expandTmpl m t) = true := by
  unfold expandTmpl
  refine over_flatMap fun x hx => ?_
  have := List.all_eq_true.mp ht x hx
  cases x with
  | lit s => exact this
  | ref n => exact cap_over hm n

theorem replace_over {K : Alphabet} {r : Rx} {t : List Tmpl} (ht : tmplOver K t = true) {s : List Char} (hs : over K s = true) : over K (replaceAllTmpl r t s) = true := by
  have h := findAll_over (r := r) (s.length + 1) none s hs
  unfold replaceAllTmpl Rx.findAll
  rw [over_append]
  refine ⟨over_flatMap fun m hm => ?_, h.2⟩
  have := h.1 m hm
  rw [over_append]
  exact ⟨this.before, expand_over ht this.caps⟩

theorem fail_matches (U : Uni) (s : List Char) : (failPat.toRx U).matches s = false := by
  unfold Rx.matches
  have : ∀ (s : List Char) prev, (failPat.toRx U).find prev s = none := by
    intro s
    induction s with
    | nil => intro prev; unfold Rx.find; rw [fail_run]
    | cons c s ih => intro prev; unfold Rx.find; rw [fail_run, ih]; rfl
  rw [this]; rfl

/-! ## Simplifications -/

def simplifyWith (l : List (Rx × List Tmpl)) (str : List Char) : List Char :=
  l.foldl (fun s d => if d.1.matches s then replaceAllTmpl d.1 d.2 s else s) str

theorem simplify_reduce {K : Alphabet} (U : Uni) : ∀ (l : List (Pat × List Tmpl)), ((pruneRules K l).all fun x => tmplOver K x.2) = true → ∀ s : List Char, over K s = true →
    simplifyWith ((pruneRules K l).map fun x => (x.1.toRx U, x.2)) s = simplifyWith (l.map fun x => (x.1.toRx U, x.2)) s ∧
    over K (simplifyWith (l.map fun x => (x.1.toRx U, x.2)) s) = true := by
  intro l
  induction l with
  | nil => intro _ s hs; exact ⟨rfl, hs⟩
  | cons x l ih =>
    intro hl s hs
    have hp := prune_same K U x.1
    by_cases hd : Pat.dead (prune K x.1) = true
    · have e : pruneRules K (x :: l) = pruneRules K l := by simp [pruneRules, hd]
      rw [e] at hl ⊢
      have hno : (x.1.toRx U).matches s = false := by
        rw [← hp.matches hs, dead_eq hd, fail_matches]
      have e2 : simplifyWith ((x :: l).map fun x => (x.1.toRx U, x.2)) s = simplifyWith (l.map fun x => (x.1.toRx U, x.2)) s := by
        simp [simplifyWith, hno]
      rw [e2]
      exact ih hl s hs
    · have e : pruneRules K (x :: l) = (prune K x.1, x.2) :: pruneRules K l := by simp [pruneRules, hd]
      rw [e] at hl ⊢
      simp only [List.all_cons, Bool.and_eq_true] at hl
      have e1 : ∀ u, simplifyWith (((prune K x.1, x.2) :: pruneRules K l).map fun x => (x.1.toRx U, x.2)) u =
          simplifyWith ((pruneRules K l).map fun x => (x.1.toRx U, x.2)) (if ((prune K x.1).toRx U).matches u then replaceAllTmpl ((prune K x.1).toRx U) x.2 u else u) := fun u => rfl
      have e2 : ∀ u, simplifyWith ((x :: l).map fun x => (x.1.toRx U, x.2)) u =
          simplifyWith (l.map fun x => (x.1.toRx U, x.2)) (if (x.1.toRx U).matches u then replaceAllTmpl (x.1.toRx U) x.2 u else u) := fun u => rfl
      rw [e1, e2, hp.matches hs, hp.replace _ hs]
      refine ih hl.2 _ ?_
      split
      · exact replace_over hl.1 hs
      · exact hs

theorem simplify_eq (L : Lang) (s : List Char) : simplify L s = simplifyWith L.simplifications s := rfl

/-! ## Splitting -/

theorem SameRun.splitWithRegex {K : Alphabet} {r q : Rx} (h : SameRun K r q) (hsep : over K splitSeparator = true) (k : Nat) : ∀ (n : Nat) (s : List Char), over K s = true →
    splitWithRegexFuel r k n s = splitWithRegexFuel q k n s ∧ over K (splitWithRegexFuel q k n s) = true := by
  intro n
  induction n with
  | zero => intro s hs; exact ⟨rfl, hs⟩
  | succ n ih =>
    intro s hs
    unfold splitWithRegexFuel Rx.findFirst
    rw [h.find s hs]
    cases e : q.find none s with
    | none => exact ⟨rfl, hs⟩
    | some m =>
      have hm := find_over s hs none m e
      have hi := ih _ hm.rest
      simp only [hi.1]
      refine ⟨trivial, ?_⟩
      have c := cap_over hm.caps
      simp only [over_append]
      refine ⟨⟨hm.before, ?_⟩, hi.2⟩
      split
      · simp only [over_append]; exact ⟨⟨hsep, c 1⟩, hsep⟩
      · split
        · simp only [over_append]; exact ⟨⟨⟨⟨c 1, hsep⟩, c 2⟩, hsep⟩, c 3⟩
        · simp only [over_append]; exact ⟨⟨hsep, hm.text⟩, hsep⟩

theorem splitGo_over {K : Alphabet} {sep : List Char} : ∀ (s : List Char) (k : Nat) (acc : List Char), over K s = true → over K acc = true →
    ∀ t ∈ splitGo sep k acc s, over K t = true := by
  intro s
  induction s with
  | nil =>
    intro k acc _ ha t ht
    have : splitGo sep k acc [] = [acc.reverse] := by cases k <;> rfl
    rw [this, List.mem_singleton] at ht
    subst ht
    exact over_sub ha fun c hc => List.mem_reverse.mp hc
  | cons c s ih =>
    intro k acc hs ha t ht
    have hc := over_cons.mp hs
    cases k with
    | succ k => exact ih k acc hc.2 ha t ht
    | zero =>
      unfold splitGo at ht
      split at ht
      · rcases List.mem_cons.mp ht with rfl | ht
        · exact over_sub ha fun c hc => List.mem_reverse.mp hc
        · exact ih _ [] hc.2 rfl t ht
      · exact ih 0 (c :: acc) hc.2 (over_cons.mpr ⟨hc.1, ha⟩) t ht

theorem numeralLoop_over {K : Alphabet} {U : Uni} : ∀ (s : List Char) (b : Bool) (g : List Char), over K s = true → over K g = true →
    ∀ t ∈ numeralLoop U b g s, over K t = true := by
  intro s
  induction s with
  | nil =>
    intro b g _ hg t ht
    simp only [numeralLoop, List.mem_singleton] at ht
    subst ht
    exact over_sub hg fun c hc => List.mem_reverse.mp hc
  | cons c s ih =>
    intro b g hs hg t ht
    have hc := over_cons.mp hs
    unfold numeralLoop at ht
    split at ht
    · rcases List.mem_cons.mp ht with rfl | ht
      · exact over_sub hg fun c hc => List.mem_reverse.mp hc
      · exact ih _ [c] hc.2 (over_cons.mpr ⟨hc.1, rfl⟩) t ht
    · exact ih _ (c :: g) hc.2 (over_cons.mpr ⟨hc.1, hg⟩) t ht

theorem numerals_over {K : Alphabet} {U : Uni} {s : List Char} (hs : over K s = true) (keep : Bool) : ∀ t ∈ splitByNumerals U s keep, over K t = true := by
  intro t ht
  unfold splitByNumerals at ht
  have ht := (List.mem_filter.mp ht).1
  cases s with
  | nil =>
    simp only [List.mem_singleton] at ht
    subst ht; rfl
  | cons c s =>
    have hc := over_cons.mp hs
    exact numeralLoop_over s _ [c] hc.2 (over_cons.mpr ⟨hc.1, rfl⟩) t ht

theorem index_over {K : Alphabet} {w : List Char} : ∀ (s : List Char) (n : Nat), over K s = true → indexStr w s = some n → over K w = true := by
  intro s
  induction s with
  | nil =>
    intro n _ h
    unfold indexStr at h
    split at h
    · rename_i hw
      rw [List.isEmpty_iff.mp hw]; rfl
    · cases h
  | cons c s ih =>
    intro n hs h
    unfold indexStr at h
    split at h
    · rename_i hw
      obtain ⟨r, hr⟩ := List.isPrefixOf_iff_prefix.mp hw
      rw [← hr] at hs
      exact (over_append.mp hs).1
    · simp only [Option.map_eq_some_iff] at h
      obtain ⟨m, hm, _⟩ := h
      exact ih m (over_cons.mp hs).2 hm

theorem knownLoop_reduce {K : Alphabet} {U : Uni} {b : Bool} {s : List Char} (hs : over K s = true) : ∀ (l : List (List Char)) (cand : Option (Nat × List Char)),
    knownLoop U b s (l.filter (over K)) cand = knownLoop U b s l cand := by
  intro l
  induction l with
  | nil => intro cand; rfl
  | cons w l ih =>
    intro cand
    by_cases hw : over K w = true
    · rw [List.filter_cons_of_pos hw]
      unfold knownLoop
      cases indexStr w s with
      | none => exact ih cand
      | some pos =>
        simp only [ih]
    · rw [List.filter_cons_of_neg hw, ih]
      conv => rhs; unfold knownLoop
      cases e : indexStr w s with
      | none => rfl
      | some pos => exact absurd (index_over s pos hs e) hw

theorem knownLoop_word {U : Uni} {b : Bool} {s : List Char} : ∀ (l : List (List Char)) (cand : Option (Nat × List Char)) (p : Nat) (w : List Char),
    knownLoop U b s l cand = some (p, w) → w ∈ l ∨ ∃ q, cand = some (q, w) := by
  intro l
  induction l with
  | nil => intro cand p w h; exact Or.inr ⟨p, h⟩
  | cons v l ih =>
    intro cand p w h
    have rest : ∀ cand, knownLoop U b s l cand = some (p, w) → (∀ q u, cand = some (q, u) → u = w → (u ∈ v :: l ∨ ∃ q, cand = some (q, w))) := fun _ _ q u hc hu => Or.inr ⟨q, by rw [hc, hu]⟩
    unfold knownLoop at h
    split at h
    · rcases ih cand p w h with h | h
      · exact Or.inl (List.mem_cons_of_mem _ h)
      · exact Or.inr h
    · rename_i pos hpos
      split at h
      · simp only at h
        have key : ∀ c', c' = (match cand with
            | none => some (pos, v)
            | some (p, v_1) => if pos < p then some (pos, v) else some (p, v_1)) → (∃ q, c' = some (q, w)) → w ∈ v :: l ∨ ∃ q, cand = some (q, w) := by
          intro c' hc' ⟨q, hq⟩
          rw [hc'] at hq
          cases cand with
          | none => cases hq; exact Or.inl (by simp)
          | some x =>
            obtain ⟨x1, x2⟩ := x
            simp only at hq
            split at hq
            · cases hq; exact Or.inl (by simp)
            · cases hq; exact Or.inr ⟨_, rfl⟩
        split at h
        · exact key _ rfl ⟨p, h⟩
        · rcases ih _ p w h with h | h
          · exact Or.inl (List.mem_cons_of_mem _ h)
          · exact key _ rfl h
      · rcases ih cand p w h with h | h
        · exact Or.inl (List.mem_cons_of_mem _ h)
        · exact Or.inr h

theorem findKnown_reduce {K : Alphabet} {U : Uni} (d : LangData) {s : List Char} (hs : over K s = true) :
    findKnown U ((reduce K d).lang U) s = findKnown U (d.lang U) s := by
  unfold findKnown
  split
  · rfl
  · exact knownLoop_reduce hs _ _

theorem findKnown_over {K : Alphabet} {U : Uni} (d : LangData) {s : List Char} (hs : over K s = true) {p : Nat} {w : List Char}
    (h : findKnown U (d.lang U) s = some (p, w)) : over K w = true := by
  rw [← findKnown_reduce d hs] at h
  unfold findKnown at h
  split at h
  · cases h
  · rcases knownLoop_word _ _ p w h with h | ⟨q, h⟩
    · exact (List.mem_filter.mp h).2
    · cases h

theorem splitKnown_reduce {K : Alphabet} {U : Uni} (d : LangData) (keep : Bool) : ∀ (n : Nat) (s : List Char), over K s = true →
    splitByKnownFuel U ((reduce K d).lang U) keep n s = splitByKnownFuel U (d.lang U) keep n s ∧
    ∀ t ∈ splitByKnownFuel U (d.lang U) keep n s, over K t = true := by
  intro n
  induction n with
  | zero => intro s _; exact ⟨rfl, fun _ h => absurd h List.not_mem_nil⟩
  | succ n ih =>
    intro s hs
    unfold splitByKnownFuel
    rw [findKnown_reduce d hs]
    cases e : findKnown U (d.lang U) s with
    | none =>
      refine ⟨rfl, ?_⟩
      simp only
      split
      · exact numerals_over hs keep
      · exact fun _ h => absurd h List.not_mem_nil
    | some x =>
      obtain ⟨pos, w⟩ := x
      have hw := findKnown_over d hs e
      have h1 : over K (s.take pos) = true := over_sub hs fun c hc => List.mem_of_mem_take hc
      have h2 : over K (s.drop (pos + w.length)) = true := over_sub hs fun c hc => List.mem_of_mem_drop hc
      have hi := ih _ h2
      simp only [hi.1]
      refine ⟨trivial, ?_⟩
      intro t ht
      simp only [List.mem_append] at ht
      rcases ht with (ht | ht) | ht
      · split at ht
        · exact numerals_over h1 keep t ht
        · cases ht
      · split at ht
        · rw [List.mem_singleton] at ht; subst ht; exact hw
        · cases ht
      · split at ht
        · exact hi.2 t ht
        · cases ht

theorem exact_reduce {K : Alphabet} {U : Uni} (d : LangData) {s : List Char} (hs : over K s = true) :
    (((reduce K d).lang U).rxExact.map (·.matches s)).getD false = ((d.lang U).rxExact.map (·.matches s)).getD false := by
  show (((d.rxExact.map (prune K)).map (·.toRx U)).map (·.matches s)).getD false = ((d.rxExact.map (·.toRx U)).map (·.matches s)).getD false
  cases d.rxExact with
  | none => rfl
  | some p => exact (prune_same K U p).matches hs

def combinedText (L : Lang) (s : List Char) : List Char :=
  match L.rxCombined with
  | some (rx, k) => splitWithRegex rx k s
  | none => s

theorem splitRaw_eq (U : Uni) (L : Lang) (s : List Char) (keep : Bool) : splitRaw U L s keep = (splitStr splitSeparator (combinedText L s)).flatMap fun token =>
    if (L.rxExact.map (·.matches token)).getD false then [token] else splitByKnown U L keep token := rfl

theorem combined_reduce {K : Alphabet} {U : Uni} (d : LangData) (hsep : over K splitSeparator = true) {s : List Char} (hs : over K s = true) :
    combinedText ((reduce K d).lang U) s = combinedText (d.lang U) s ∧ over K (combinedText (d.lang U) s) = true := by
  have e1 : ((reduce K d).lang U).rxCombined = (d.rxCombined.map fun x => (prune K x.1, x.2)).map fun x => (x.1.toRx U, x.2) := rfl
  have e2 : (d.lang U).rxCombined = d.rxCombined.map fun x => (x.1.toRx U, x.2) := rfl
  unfold combinedText
  rw [e1, e2]
  cases d.rxCombined with
  | none => exact ⟨rfl, hs⟩
  | some x => exact (prune_same K U x.1).splitWithRegex hsep x.2 (s.length + 1) s hs

theorem splitRaw_reduce {K : Alphabet} {U : Uni} (d : LangData) (hsep : over K splitSeparator = true) (keep : Bool) {s : List Char} (hs : over K s = true) :
    splitRaw U ((reduce K d).lang U) s keep = splitRaw U (d.lang U) s keep ∧ ∀ t ∈ splitRaw U (d.lang U) s keep, over K t = true := by
  have hc := combined_reduce (U := U) d hsep hs
  have hpieces : ∀ t ∈ splitStr splitSeparator (combinedText (d.lang U) s), over K t = true := splitGo_over _ 0 [] hc.2 rfl
  rw [splitRaw_eq, splitRaw_eq, hc.1]
  constructor
  · refine flatMap_eq fun t ht => ?_
    have ho := hpieces t ht
    rw [exact_reduce d ho]
    split
    · rfl
    · exact (splitKnown_reduce d keep _ t ho).1
  · intro t ht
    obtain ⟨x, hx, ht⟩ := List.mem_flatMap.mp ht
    have ho := hpieces x hx
    split at ht
    · rw [List.mem_singleton] at ht; subst ht; exact ho
    · exact (splitKnown_reduce d keep _ x ho).2 t ht

theorem splitText_reduce {K : Alphabet} {U : Uni} (d : LangData) (hsep : over K splitSeparator = true) (keep : Bool) (skip : List (List Char)) {s : List Char} (hs : over K s = true) :
    splitText U ((reduce K d).lang U) s keep skip = splitText U (d.lang U) s keep skip ∧ ∀ t ∈ splitText U (d.lang U) s keep skip, over K t = true := by
  have := splitRaw_reduce (U := U) d hsep keep hs
  unfold splitText
  rw [this.1]
  exact ⟨rfl, fun t ht => this.2 t (List.mem_filter.mp ht).1⟩

/-! ## Translating -/

theorem lookup_filter {β : Type} {q : List Char → Bool} {w : List Char} (hw : q w = true) : ∀ (l : List (List Char × β)), (l.filter fun (x : List Char × β) => q x.1).lookup w = l.lookup w := by
  intro l
  induction l with
  | nil => rfl
  | cons x l ih =>
    by_cases hx : q x.1 = true
    · rw [List.filter_cons_of_pos (by simpa using hx), List.lookup_cons, List.lookup_cons, ih]
    · rw [List.filter_cons_of_neg (by simpa using hx), List.lookup_cons, ih]
      have : (w == x.1) = false := by
        rw [beq_eq_false_iff_ne]; rintro rfl; exact hx hw
      rw [this]

theorem translateWord_reduce {K : Alphabet} {U : Uni} (d : LangData) {w : List Char} (hw : over K w = true) :
    ((reduce K d).lang U).translateWord w = (d.lang U).translateWord w := by
  show (match (d.relativeType.filter fun x => over K x.1).lookup w with
    | some t => some [t]
    | none => (d.translations.filter fun (x : List Char × List (List Char)) => over K x.1).lookup w) = _
  rw [lookup_filter hw, lookup_filter hw]
  rfl

theorem rules_find {K : Alphabet} (U : Uni) {s : List Char} (hs : over K s = true) : ∀ (l : List (Pat × List Tmpl)),
    (((pruneRules K l).map fun x => (x.1.toRx U, x.2)).find? (·.1.matches s)).map (fun d => replaceAllTmpl d.1 d.2 s) =
    ((l.map fun x => (x.1.toRx U, x.2)).find? (·.1.matches s)).map (fun d => replaceAllTmpl d.1 d.2 s) := by
  intro l
  induction l with
  | nil => rfl
  | cons x l ih =>
    have hp := prune_same K U x.1
    by_cases hd : Pat.dead (prune K x.1) = true
    · have e : pruneRules K (x :: l) = pruneRules K l := by simp [pruneRules, hd]
      have hno : (x.1.toRx U).matches s = false := by
        rw [← hp.matches hs, dead_eq hd, fail_matches]
      rw [e, ih, List.map_cons, List.find?_cons_of_neg (by simp [hno])]
    · have e : pruneRules K (x :: l) = (prune K x.1, x.2) :: pruneRules K l := by simp [pruneRules, hd]
      rw [e, List.map_cons, List.map_cons]
      cases hm : (x.1.toRx U).matches s with
      | true =>
        rw [List.find?_cons_of_pos (by simp [hp.matches hs, hm]), List.find?_cons_of_pos (by simp [hm])]
        simp only [Option.map_some]
        rw [hp.replace _ hs]
      | false =>
        rw [List.find?_cons_of_neg (by simp [hp.matches hs, hm]), List.find?_cons_of_neg (by simp [hm]), ih]

theorem translateToken_reduce {K : Alphabet} {U : Uni} (d : LangData) (skip : List (List Char)) (keep : Bool) {w : List Char} (hw : over K w = true) :
    translateToken ((reduce K d).lang U) skip keep w = translateToken (d.lang U) skip keep w := by
  unfold translateToken
  rw [translateWord_reduce d hw]
  have h := rules_find U hw d.relativeRegexes
  have e1 : ((reduce K d).lang U).relativeRegexes = (pruneRules K d.relativeRegexes).map fun x => (x.1.toRx U, x.2) := rfl
  have e2 : (d.lang U).relativeRegexes = d.relativeRegexes.map fun x => (x.1.toRx U, x.2) := rfl
  rw [e1, e2]
  split
  · rfl
  · cases a : ((pruneRules K d.relativeRegexes).map fun x => (x.1.toRx U, x.2)).find? (·.1.matches w) with
    | none =>
      rw [a] at h
      cases b : (d.relativeRegexes.map fun x => (x.1.toRx U, x.2)).find? (·.1.matches w) with
      | none => rfl
      | some y => rw [b] at h; cases h
    | some x =>
      rw [a] at h
      cases b : (d.relativeRegexes.map fun x => (x.1.toRx U, x.2)).find? (·.1.matches w) with
      | none => rw [b] at h; cases h
      | some y =>
        rw [b] at h
        simp only [Option.map_some, Option.some.injEq] at h
        show [_] = [_]
        rw [h]

/-! ## The locale as a whole -/

structure AgreeOn (U : Uni) (L L' : Lang) (skip : List (List Char)) (s : List Char) : Prop where
  applicable : isApplicable U L skip s = isApplicable U L' skip s
  translate : ∀ keep, Model.translate U L skip s keep = Model.translate U L' skip s keep

theorem reduce_agree {K : Alphabet} {U : Uni} (d : LangData) (hsep : over K splitSeparator = true) (hclosed : closed K (reduce K d) = true) (skip : List (List Char))
    {s : List Char} (hs : over K (normalizeToken U s) = true) : AgreeOn U ((reduce K d).lang U) (d.lang U) skip s := by
  have hsimp := simplify_reduce U d.simplifications hclosed _ hs
  have e0 : simplify ((reduce K d).lang U) (normalizeToken U s) = simplify (d.lang U) (normalizeToken U s) := hsimp.1
  have ho : over K (simplify (d.lang U) (normalizeToken U s)) = true := hsimp.2
  have esk : mapSkippedTokens skip ((reduce K d).lang U) = mapSkippedTokens skip (d.lang U) := rfl
  constructor
  · unfold isApplicable
    have ht := splitText_reduce (U := U) d hsep false (mapSkippedTokens skip (d.lang U)) ho
    simp only [e0, esk, ht.1]
    congr 1
    rw [Bool.eq_iff_iff, List.all_eq_true, List.all_eq_true]
    have key : ∀ t ∈ splitText U (d.lang U) (simplify (d.lang U) (normalizeToken U s)) false (mapSkippedTokens skip (d.lang U)),
        (isNumberOnly U t || ((reduce K d).lang U).inDictionary t || (mapSkippedTokens skip (d.lang U)).contains t || (((reduce K d).lang U).rxExact.map (·.matches t)).getD false) =
        (isNumberOnly U t || (d.lang U).inDictionary t || (mapSkippedTokens skip (d.lang U)).contains t || ((d.lang U).rxExact.map (·.matches t)).getD false) := by
      intro t h
      rw [exact_reduce d (ht.2 t h)]
      unfold Lang.inDictionary
      rw [translateWord_reduce d (ht.2 t h)]
    exact ⟨fun h t m => by rw [← key t m]; exact h t m, fun h t m => by rw [key t m]; exact h t m⟩
  · intro keep
    unfold Model.translate
    have ht := splitText_reduce (U := U) d hsep keep (mapSkippedTokens skip (d.lang U)) ho
    simp only [e0, esk, ht.1]
    congr 2
    exact List.map_congr_left fun t m => translateToken_reduce d _ keep (ht.2 t m)

/-! ## Merging -/

theorem pruneRules_append (K : Alphabet) (a b : List (Pat × List Tmpl)) : pruneRules K (a ++ b) = pruneRules K a ++ pruneRules K b := by
  simp [pruneRules]

theorem filter_pairs {β γ : Type} (q : List Char → Bool) (f : List Char → β → γ) (l : List (List Char × β)) :
    (l.map fun x => (x.1, f x.1 x.2)).filter (fun x => q x.1) = (l.filter fun x => q x.1).map fun x => (x.1, f x.1 x.2) := by
  rw [List.filter_map]; rfl

theorem reduce_merge (K : Alphabet) (p : Option LangData) (d : LangData) : reduce K (mergeLang p d) = mergeLang (p.map (reduce K)) (reduce K d) := by
  cases p with
  | none => rfl
  | some p =>
    unfold mergeLang reduce
    simp only [Option.map_some, LangData.mk.injEq, true_and, pruneRules_append]
    refine ⟨rfl, rfl, ?_, ?_, ?_, ?_⟩
    · rw [List.filter_append, filter_pairs (over K) (fun w ts => mergeWords ((d.translations.lookup w).getD []) ts)]
      congr 1
      · refine List.map_congr_left fun x hx => ?_
        rw [lookup_filter (List.mem_filter.mp hx).2]
      · rw [List.filter_filter, List.filter_filter]
        refine List.filter_congr fun x hx => ?_
        cases ho : over K x.1 with
        | false => simp
        | true => rw [lookup_filter (q := over K) ho]; simp
    · rw [List.filter_append]
      congr 1
      rw [List.filter_filter, List.filter_filter]
      refine List.filter_congr fun x hx => ?_
      cases ho : over K x.1 with
      | false => simp
      | true => rw [lookup_filter (q := over K) ho]; simp
    · cases d.rxCombined <;> simp
    · cases d.rxExact <;> simp

/-- `mergeWords` without sorting what is sorted. -/
def mergeWordsC (own parent : List (List Char)) : List (List Char) :=
  if (own ++ parent).Pairwise (fun a b => strLe a b = true) then compact (own ++ parent) else mergeWords own parent

theorem mergeWordsC_eq (own parent : List (List Char)) : mergeWordsC own parent = mergeWords own parent := by
  unfold mergeWordsC
  split
  · rename_i h
    unfold mergeWords
    rw [List.mergeSort_of_pairwise h]
  · rfl

/-- `mergeLang` with it. -/
def mergeLangC (parent : Option LangData) (child : LangData) : LangData :=
  match parent with
  | none => child
  | some p => { mergeLang (some p) child with
      translations := p.translations.map (fun x => (x.1, mergeWordsC ((child.translations.lookup x.1).getD []) x.2)) ++
        child.translations.filter (fun x => (p.translations.lookup x.1).isNone) }

theorem mergeLangC_eq (parent : Option LangData) (child : LangData) : mergeLangC parent child = mergeLang parent child := by
  cases parent with
  | none => rfl
  | some p => simp only [mergeLangC, mergeLang, mergeWordsC_eq]

def reducedC (K : Alphabet) (x : LangData × Option LangData) : LangData := mergeLangC (x.2.map (reduce K)) (reduce K x.1)

theorem reducedC_eq (K : Alphabet) (x : LangData × Option LangData) : reducedC K x = reduce K (mergeLang x.2 x.1) := by
  unfold reducedC
  rw [mergeLangC_eq, reduce_merge]

/-! ## Names -/

theorem agree_rename {U : Uni} {d : LangData} {n m : Name} (hn : n ≠ ['f', 'i']) (hm : m ≠ ['f', 'i']) (skip : List (List Char)) (s : List Char) :
    AgreeOn U ({ d with name := n }.lang U) ({ d with name := m }.lang U) skip s :=
  ⟨applicable_name U d n m hn hm skip s, fun keep => translate_name U d n m hn hm skip s keep⟩

end Verif.Lemmas
