import Verif.Lemmas.Timezone
/-! # C20: time zones -/
set_option autoImplicit false
namespace Verif.Props
open Verif.Go Verif.Model Verif.Spec Verif.Data Verif.Lemmas

/-- What is in a table. -/
theorem mem_table {t : List TzEntry} (ht : IsTable t) (e : TzEntry) :
    e ∈ t ↔ (e ∈ utcMain ∨ (∃ k < 8, e ∈ utcAlt k)) ∨ e ∈ namedMain := by
  obtain ⟨main, ks, alt, named, rfl, h1, h2, h3, h4⟩ := ht
  simp only [List.mem_append, List.mem_flatMap, h1.mem_iff, h2.mem_iff, h4.mem_iff, (h3 _).mem_iff, List.mem_range]

/-- An entry that matches is a zone that is seen. -/
theorem sees_of_match {t : List TzEntry} (ht : IsTable t) {e : TzEntry} (he : e ∈ t) {g : Sight} (hm : EntryMatch e g) :
    SeesOffset g e.offset ∨ SeesName g e.offset := by
  have hoff : ∀ z ∈ utcZones, ∀ items, e = ⟨z.1, items, true, z.2⟩ →
      (∀ neg h m, h < 24 → m < 60 → z.1 = offsetName neg h m → ItemsMatch items g.zone → OffsetText neg h m g.zone) →
      SeesOffset g e.offset := by
    intro z hz items he h0
    subst he
    obtain ⟨neg, h, m, hh, hm', e1, e2⟩ := utcZones_form hz
    obtain ⟨hi, h1⟩ := hm
    simp only [if_true] at h1
    exact ⟨h1.1, h1.2.1, h1.2.2, neg, h, m, ⟨hh, hm', z, hz, e1⟩, h0 neg h m hh hm' e1 hi, e2⟩
  rcases (mem_table ht e).mp he with (h | ⟨k, _, h⟩) | h
  · obtain ⟨z, hz, rfl⟩ := List.mem_map.mp h
    left
    refine hoff z hz _ rfl ?_
    intro neg h m hh hm' e1 hi
    rw [e1] at hi
    exact quoted_full "UTC".toList (Or.inl rfl) neg hh hm' true hi
  · obtain ⟨z, hz, rfl⟩ := List.mem_map.mp h
    left
    refine hoff z hz _ rfl ?_
    intro neg h m hh hm' e1 hi
    rw [e1] at hi
    exact alt_items k neg h m hh hm' _ hi
  · obtain ⟨z, hz, rfl⟩ := List.mem_map.mp h
    right
    obtain ⟨hi, h1⟩ := hm
    simp only [Bool.false_eq_true, if_false] at h1
    exact ⟨h1.1, h1.2, z.1, hz, (items_name _ _).mp hi⟩

/-- A zone that is seen is matched by an entry. -/
theorem match_of_sees {t : List TzEntry} (ht : IsTable t) {g : Sight} {o : Int} (h : SeesOffset g o ∨ SeesName g o) :
    ∃ e ∈ t, e.offset = o ∧ EntryMatch e g := by
  rcases h with ⟨h1, h2, h3, neg, h, m, ⟨hh, hm, z, hz, ez⟩, hw, rfl⟩ | ⟨h1, h2, name, hn, hw⟩
  · obtain ⟨k, hk, hi⟩ := offsetText_alt hh hm hw
    refine ⟨⟨z.1, altItems k z.1, true, z.2⟩, ?_, ?_, ?_, ?_⟩
    · exact (mem_table ht _).mpr (Or.inl (Or.inr ⟨k, hk, List.mem_map.mpr ⟨z, hz, rfl⟩⟩))
    · obtain ⟨neg', h', m', hh', hm', e1, e2⟩ := utcZones_form hz
      simp only
      rw [e2]
      rw [ez] at e1
      have : ∀ a b : Fin 10, digitChar a.val = digitChar b.val → a = b := by decide
      have inj : ∀ a b, a < 10 → b < 10 → digitChar a = digitChar b → a = b := fun a b ha hb hab => by
        have := this ⟨a, ha⟩ ⟨b, hb⟩ hab
        simpa using this
      simp only [offsetName, two, List.cons_append, List.nil_append, List.append_cancel_left_eq, List.cons.injEq, and_true,
        true_and] at e1
      obtain ⟨s1, s2, s3, s4, s5⟩ := e1
      have a2 := inj _ _ (by omega) (by omega) s2
      have a3 := inj _ _ (by omega) (by omega) s3
      have a4 := inj _ _ (by omega) (by omega) s4
      have a5 := inj _ _ (by omega) (by omega) s5
      have a1 : neg = neg' := by
        revert s1; cases neg <;> cases neg' <;> decide
      rw [a1, show h = h' by omega, show m = m' by omega]
    · rw [ez]; exact hi
    · simp only [if_true]; exact ⟨h1, h2, h3⟩
  · refine ⟨⟨name, litItems name, false, o⟩, ?_, rfl, ?_, ?_⟩
    · exact (mem_table ht _).mpr (Or.inr (List.mem_map.mpr ⟨_, hn, rfl⟩))
    · exact (items_name _ _).mpr hw
    · simp only [Bool.false_eq_true, if_false]; exact ⟨h1, h2⟩

/-- **C20.** Whatever order Go puts its tables in: a zone that is taken is one that can be seen in the text, with the
offset it stands for, and what is left is the text without it; when no zone can be seen the text is left as it is. -/
theorem C20_pop {t : List TzEntry} (ht : IsTable t) (str : List Char) :
    match popTzOffset t str with
    | (left, some tz) => ∃ s, Sees str s tz.offset ∧ left = s.left
    | (left, none) => left = str ∧ ∀ s o, ¬ Sees str s o := by
  rw [pop_eq_loop]
  cases h : popLoop str t with
  | mk left z =>
    have := popLoop_eq t h
    cases z with
    | some z =>
      obtain ⟨e, he, rfl, g, h1, h2, h3⟩ := this
      exact ⟨g, ⟨h1, sees_of_match ht he h3⟩, h2.symm⟩
    | none =>
      refine ⟨this.1, ?_⟩
      rintro s o ⟨hs, hv⟩
      obtain ⟨e, he, _, hm⟩ := match_of_sees ht hv
      exact this.2 e he s hs hm

/-- **C20.** When there is only one zone to be seen in the text, that zone is taken. -/
theorem C20_only {t : List TzEntry} (ht : IsTable t) {str left : List Char} {o : Int} (h : ∃ s, Sees str s o)
    (hu : ∀ s o', Sees str s o' → o' = o ∧ s.left = left) :
    ∃ tz, popTzOffset t str = (left, some tz) ∧ tz.offset = o := by
  have := C20_pop ht str
  obtain ⟨s, hs⟩ := h
  cases hp : popTzOffset t str with
  | mk l z =>
    rw [hp] at this
    cases z with
    | none => exact absurd hs (this.2 s o)
    | some z =>
      obtain ⟨s', h1, rfl⟩ := this
      obtain ⟨h2, h3⟩ := hu _ _ h1
      exact ⟨z, by rw [h3], h2⟩


/-! ## Texts with one zone at the end -/

/-- No character of A–Z in any case. -/
def Letterless (l : List Char) : Prop := ∀ x ∈ l, (foldC x).isAlpha = false

theorem utcOrGmt_letter {p : List Char} (h : UtcOrGmt p) : ∃ x r, p = x :: r ∧ (foldC x).isAlpha = true := by
  rcases h with h | h
  all_goals
    cases p with
    | nil => simp [SameText] at h
    | cons x r =>
      simp only [SameText] at h
      have := List.head_eq_of_cons_eq (h.trans rfl)
      exact ⟨x, r, rfl, by rw [this]; decide⟩

theorem namedZones_letter : ∀ z ∈ namedZones, ((z.1.map foldC).head?.map Char.isAlpha) = some true := by decide +kernel

theorem name_letter {w name : List Char} {o : Int} (hn : (name, o) ∈ namedZones) (h : SameText w name) :
    ∃ x r, w = x :: r ∧ (foldC x).isAlpha = true := by
  have := namedZones_letter _ hn
  simp only at this
  rw [← h] at this
  cases w with
  | nil => simp at this
  | cons x r => exact ⟨x, r, rfl, by simpa using this⟩

theorem plain_letterless {neg : Bool} {h m : Nat} (hh : h < 24) (hm : m < 60) (colon : Bool) :
    Letterless (signChar neg :: (two h ++ (if colon then [':'] else []) ++ two m)) := by
  have d : ∀ n, n < 10 → (foldC (digitChar n)).isAlpha = false := by
    intro n hn
    have : ∀ k : Fin 10, (foldC (digitChar k.val)).isAlpha = false := by decide
    exact this ⟨n, hn⟩
  intro x hx
  simp only [two, List.mem_cons, List.mem_append, List.not_mem_nil, or_false] at hx
  rcases hx with rfl | ((rfl | rfl) | hx) | (rfl | rfl)
  · cases neg <;> decide
  · exact d _ (by omega)
  · exact d _ (by omega)
  · cases colon with
    | false => simp at hx
    | true => have : x = ':' := by simpa using hx
              subst this; decide
  · exact d _ (by omega)
  · exact d _ (by omega)

theorem digit_inj {a b : Nat} (ha : a < 10) (hb : b < 10) (h : digitChar a = digitChar b) : a = b := by
  have : ∀ a b : Fin 10, digitChar a.val = digitChar b.val → a = b := by decide
  have := this ⟨a, ha⟩ ⟨b, hb⟩ h
  simpa using this

theorem digit_ne_colon {a : Nat} (ha : a < 10) : digitChar a ≠ ':' := by
  have : ∀ a : Fin 10, digitChar a.val ≠ ':' := by decide
  exact this ⟨a, ha⟩

theorem sign_inj {a b : Bool} (h : signChar a = signChar b) : a = b := by
  revert h; cases a <;> cases b <;> decide

/-- **C20.** An offset at the end of a text without letters is taken, whatever order Go's tables are in. -/
theorem C20_offset_at_end {t : List TzEntry} (ht : IsTable t) {b : List Char} {c : Char} (hb : Letterless (b ++ [c]))
    (hc : c ≠ '\n') {neg : Bool} {h m : Nat} (hk : KnownOffset neg h m) (colon : Bool) :
    ∃ tz, popTzOffset t (b ++ c :: (signChar neg :: (two h ++ (if colon then [':'] else []) ++ two m))) =
      (b ++ [firstByte c], some tz) ∧ tz.offset = seconds neg h m := by
  obtain ⟨hh, hm, hz⟩ := hk
  have hl : Letterless (b ++ c :: (signChar neg :: (two h ++ (if colon then [':'] else []) ++ two m))) := by
    intro x hx
    rcases List.mem_append.mp hx with hx | hx
    · exact hb x (by simp [hx])
    · rcases List.mem_cons.mp hx with rfl | hx
      · exact hb x (by simp)
      · exact plain_letterless hh hm colon x hx
  refine C20_only ht ⟨⟨b, c, _, none, []⟩, ?_, Or.inl ⟨hc, rfl, rfl, neg, h, m, ⟨hh, hm, hz⟩, .plain colon, rfl⟩⟩ ?_
  · simp [Sight.text]
  · rintro s o' ⟨hs, hv⟩
    have hzone : ∀ x ∈ s.zone, (foldC x).isAlpha = false := by
      intro x hx
      refine hl x ?_
      rw [← hs]; simp [Sight.text, hx]
    have nop : ∀ (p q : List Char), UtcOrGmt p → s.zone = p ++ q → False := by
      intro p q hp e
      obtain ⟨x, r, rfl, hx⟩ := utcOrGmt_letter hp
      have := hzone x (by rw [e]; simp)
      rw [hx] at this; exact absurd this (by simp)
    rcases hv with ⟨h1, h2, h3, neg', h', m', ⟨hh', hm', hz'⟩, hw, rfl⟩ | ⟨h1, h2, name, hn, hw⟩
    · obtain ⟨sb, sc, sz, sn, sr⟩ := s
      simp only at h1 h2 h3 hw nop
      subst h2; subst h3
      generalize hgz : sz = z at hw
      cases hw with
      | plain colon' =>
        subst hgz
        have hr := congrArg List.reverse hs
        unfold Sight.left
        simp only [Sight.text, two, Option.toList_none, List.append_nil] at hr ⊢
        cases colon <;> cases colon' <;>
          simp only [if_true, if_false, Bool.false_eq_true, List.cons_append, List.nil_append, List.append_nil,
            List.reverse_append, List.reverse_cons, List.reverse_nil, List.append_assoc, List.cons.injEq] at hr
        · obtain ⟨e1, e2, e3, e4, e5, e6, e7⟩ := hr
          have := digit_inj (by omega) (by omega) e1
          have := digit_inj (by omega) (by omega) e2
          have := digit_inj (by omega) (by omega) e3
          have := digit_inj (by omega) (by omega) e4
          have hn := sign_inj e5
          have e7 := List.reverse_inj.mp e7
          refine ⟨?_, ?_⟩
          · rw [hn, show h' = h by omega, show m' = m by omega]
          · rw [e6, e7]
        · exact absurd hr.2.2.1.symm (digit_ne_colon (by omega))
        · exact absurd hr.2.2.1 (digit_ne_colon (by omega))
        · obtain ⟨e1, e2, _, e3, e4, e5, e6, e7⟩ := hr
          have := digit_inj (by omega) (by omega) e1
          have := digit_inj (by omega) (by omega) e2
          have := digit_inj (by omega) (by omega) e3
          have := digit_inj (by omega) (by omega) e4
          have hn := sign_inj e5
          have e7 := List.reverse_inj.mp e7
          refine ⟨?_, ?_⟩
          · rw [hn, show h' = h by omega, show m' = m by omega]
          · rw [e6, e7]
      | full p hp _ _ _ => exact (nop p _ hp hgz).elim
      | hours p hp _ => exact (nop p _ hp hgz).elim
      | short p hp _ _ => exact (nop p _ hp hgz).elim
      | shortMin p hp _ => exact (nop p _ hp hgz).elim
    · obtain ⟨x, r, e, hx⟩ := name_letter hn hw
      have := hzone x (by rw [e]; simp)
      rw [hx] at this; exact absurd this (by simp)

/-- A number for a name. -/
def nameCode (l : List Char) : Nat := l.foldl (fun n c => n * 2097152 + (foldC c).toNat) 0

theorem nameCode_same {a b : List Char} (h : SameText a b) : nameCode a = nameCode b := by
  have : ∀ l : List Char, ∀ n, l.foldl (fun n c => n * 2097152 + (foldC c).toNat) n =
      (l.map foldC).foldl (fun n c => n * 2097152 + c.toNat) n := by
    intro l
    induction l with
    | nil => intro n; rfl
    | cons c l ih => intro n; simp only [List.foldl_cons, List.map_cons]; exact ih _
  unfold nameCode
  rw [this, this, h]

theorem codes_dup : (namedZones.map fun z => nameCode z.1).Nodup := by decide +kernel


theorem codes_offset {z y : List Char × Int} (hz : z ∈ namedZones) (hy : y ∈ namedZones) (h : SameText z.1 y.1) : z = y := by
  have key : ∀ l : List (List Char × Int), (l.map fun z => nameCode z.1).Nodup → ∀ z ∈ l, ∀ y ∈ l,
      nameCode z.1 = nameCode y.1 → z = y := by
    intro l
    induction l with
    | nil => intro _ z hz; simp at hz
    | cons a l ih =>
      intro hn z hz y hy e
      simp only [List.map_cons, List.nodup_cons, List.mem_map, not_exists, not_and] at hn
      rcases List.mem_cons.mp hz with h1 | h1 <;> rcases List.mem_cons.mp hy with h2 | h2
      · rw [h1, h2]
      · rw [h1] at e; exact absurd e.symm (hn.1 y h2)
      · rw [h2] at e; exact absurd e (hn.1 z h1)
      · exact ih hn.2 z h1 y h2 e
  exact key _ codes_dup z hz y hy (nameCode_same h)

/-- The characters of the names. -/
theorem names_chars : ∀ z ∈ namedZones, (z.1.dropLast.all fun x => (foldC x).isAlpha) ∧
    (z.1.all fun x => (foldC x).isAlpha || foldC x == '\u010d') ∧
    ((z.1.all fun x => (foldC x).isAlpha) ∨ ∀ y ∈ namedZones, nameCode y.1 ≠ nameCode z.1.dropLast) := by decide +kernel

theorem sameText_append {w a b : List Char} (h : SameText w (a ++ b)) :
    ∃ u v, w = u ++ v ∧ SameText u a ∧ SameText v b := by
  refine ⟨w.take a.length, w.drop a.length, (List.take_append_drop _ _).symm, ?_, ?_⟩
  · unfold SameText at *; rw [List.map_take, h]; simp
  · unfold SameText at *; rw [List.map_drop, h]; simp

theorem sameText_all {w n : List Char} (p : Char → Bool) (h : SameText w n) (hn : (n.all fun x => p (foldC x)) = true) :
    ∀ x ∈ w, p (foldC x) = true := by
  intro x hx
  have : foldC x ∈ n.map foldC := by rw [← h]; exact List.mem_map.mpr ⟨x, hx, rfl⟩
  obtain ⟨y, hy, e⟩ := List.mem_map.mp this
  rw [← e]
  exact List.all_eq_true.mp hn y hy

/-- Where something that begins with a letter can be. -/
theorem locate {b w u v : List Char} {x : Char} (e : u ++ x :: v = b ++ w) (hb : Letterless b)
    (hx : (foldC x).isAlpha = true) : ∃ a, w = a ++ x :: v ∧ u = b ++ a := by
  rcases List.append_eq_append_iff.mp e with ⟨a, h1, h2⟩ | ⟨a, h1, h2⟩
  · cases a with
    | nil => exact ⟨[], by simpa using h2.symm, by simpa using h1.symm⟩
    | cons y a =>
      simp only [List.cons_append, List.cons.injEq] at h2
      have := hb x (by rw [h1, h2.1]; simp)
      rw [hx] at this; exact absurd this (by simp)
  · exact ⟨a, h2, h1⟩

/-- **C20.** A known abbreviation, in any letter case, at the end of a text without other letters is taken, whatever
order Go's tables are in. -/
theorem C20_name_at_end {t : List TzEntry} (ht : IsTable t) {b : List Char} {c : Char} (hb : Letterless (b ++ [c]))
    {name w : List Char} {o : Int} (hn : (name, o) ∈ namedZones) (hw : SameText w name) :
    ∃ tz, popTzOffset t (b ++ c :: w) = (b ++ [firstByte c], some tz) ∧ tz.offset = o := by
  refine C20_only ht ⟨⟨b, c, w, none, []⟩, ?_, Or.inr ⟨hb c (by simp), rfl, name, hn, hw⟩⟩ ?_
  · simp [Sight.text]
  obtain ⟨n1, n2, n3⟩ := names_chars _ hn
  simp only at n1 n2 n3
  have hwall : ∀ x ∈ w, (foldC x).isAlpha = true ∨ foldC x = '\u010d' := by
    intro x hx
    have := sameText_all (fun y => y.isAlpha || y == '\u010d') hw n2 x hx
    simpa using this
  have hwinit : ∀ u y, w = u ++ [y] → (∀ x ∈ u, (foldC x).isAlpha = true) ∧ SameText u name.dropLast := by
    intro u y e
    have h1 : SameText u name.dropLast := by
      unfold SameText at *
      rw [List.map_dropLast, ← hw, e]; simp
    exact ⟨fun x hx => sameText_all Char.isAlpha h1 n1 x hx, h1⟩
  rintro s o' ⟨hs, hv⟩
  obtain ⟨sb, sc, sz, sn, sr⟩ := s
  have hs' : (sb ++ [sc]) ++ (sz ++ sn.toList ++ sr) = (b ++ [c]) ++ w := by
    simpa [Sight.text] using hs
  rcases hv with ⟨h1, h2, h3, neg', h', m', ⟨hh', hm', hz'⟩, hz, rfl⟩ | ⟨h1, h2, name', hn', hz⟩
  · exfalso
    simp only at h1 h2 h3 hz
    subst h2; subst h3
    simp only [Option.toList_none, List.append_nil] at hs'
    have hsign : ∀ neg, signChar neg ∉ w := by
      intro neg hmem
      rcases hwall _ hmem with h | h
      · revert h; cases neg <;> decide
      · revert h; cases neg <;> decide
    have nop : ∀ (p q : List Char), UtcOrGmt p → sz = p ++ signChar neg' :: q → False := by
      intro p q hp e
      obtain ⟨x, r, rfl, hx⟩ := utcOrGmt_letter hp
      rw [e] at hs'
      obtain ⟨a, ha, _⟩ := locate (u := sb ++ [sc]) (b := b ++ [c]) (w := w) (v := r ++ signChar neg' :: q) (x := x) (by simpa using hs') hb hx
      exact hsign neg' (by rw [ha]; simp)
    cases hz with
    | plain colon =>
      obtain ⟨x, r, e, _⟩ := name_letter hn hw
      have hr := congrArg List.reverse hs'
      have hne : w ≠ [] := by rw [e]; simp
      have hlast := List.dropLast_concat_getLast hne
      have hd : (foldC (w.getLast hne)).isAlpha = true ∨ foldC (w.getLast hne) = '\u010d' := hwall _ (List.getLast_mem hne)
      rw [← hlast] at hr
      simp only [two, List.cons_append, List.nil_append, List.append_nil, List.reverse_append, List.reverse_cons,
        List.reverse_nil, List.append_assoc, List.cons.injEq] at hr
      rw [← hr.1] at hd
      have : ∀ k : Fin 10, (foldC (digitChar k.val)).isAlpha = false ∧ foldC (digitChar k.val) ≠ '\u010d' := by decide
      have := this ⟨m' % 10, by omega⟩
      rcases hd with hd | hd
      · rw [this.1] at hd; exact absurd hd (by simp)
      · exact this.2 hd
    | full p hp colon tail _ => exact nop p _ hp rfl
    | hours p hp _ => exact nop p _ hp rfl
    | short p hp _ _ => exact nop p _ hp rfl
    | shortMin p hp _ => exact nop p _ hp rfl
  · simp only at h1 h2 hz
    obtain ⟨x, r, e, hx⟩ := name_letter hn' hz
    have hsz : sz = x :: r := e
    rw [hsz] at hs'
    obtain ⟨a, ha, hu⟩ := locate (u := sb ++ [sc]) (b := b ++ [c]) (w := w) (v := r ++ sn.toList ++ sr) (x := x) (by simpa using hs') hb hx
    -- the zone begins where the name begins
    have ha0 : a = [] := by
      rcases List.eq_nil_or_concat a with h | ⟨a', y, h⟩
      · exact h
      · exfalso
        rw [List.concat_eq_append] at h
        subst h
        rw [← List.append_assoc] at hu
        have hy : sc = y := by
          have := List.append_inj' hu rfl
          simpa using this.2
        subst hy
        rcases List.eq_nil_or_concat (x :: (r ++ sn.toList ++ sr)) with h | ⟨q, y, h⟩
        · simp at h
        · rw [List.concat_eq_append] at h
          have := (hwinit (a' ++ [sc] ++ q) y (by rw [ha, h]; simp)).1 sc (by simp)
          rw [h1] at this; exact absurd this (by simp)
    subst ha0
    simp only [List.nil_append, List.append_nil] at ha hu
    have hbc : sb = b ∧ sc = c := by
      have := List.append_inj' hu rfl
      exact ⟨this.1, by simpa using this.2⟩
    have hwz : w = sz ++ sn.toList ++ sr := by rw [ha, hsz]; simp
    cases sn with
    | none =>
      simp only at h2
      subst h2
      have hwz : w = sz := by simpa using hwz
      subst hwz
      have hst : SameText name' name := by
        unfold SameText at *; rw [← hz, hw]
      have := codes_offset hn' hn hst
      simp only [Prod.mk.injEq] at this
      refine ⟨this.2, ?_⟩
      simp [Sight.left, hbc.1, hbc.2]
    | some d =>
      exfalso
      simp only at h2
      have hd : (foldC d).isAlpha = false := by
        cases hd : (foldC d).isAlpha with
        | false => rfl
        | true => rw [isWordC, Char.isAlphanum, hd] at h2; simp at h2
      rcases List.eq_nil_or_concat sr with h | ⟨q, y, h⟩
      · subst h
        have e2 : w = sz ++ [d] := by simpa using hwz
        obtain ⟨_, g⟩ := hwinit _ _ e2
        rcases n3 with n3 | n3
        · have := sameText_all Char.isAlpha hw n3 d (by rw [e2]; simp)
          rw [hd] at this; exact absurd this (by simp)
        · refine n3 _ hn' ?_
          apply nameCode_same
          unfold SameText at *
          simp only
          rw [← hz, g]
      · rw [List.concat_eq_append] at h
        have := (hwinit (sz ++ [d] ++ q) y (by rw [hwz, h]; simp)).1 d (by simp)
        rw [hd] at this; exact absurd this (by simp)


/-! ## The order of Go's tables -/

/-- A table with the alternative patterns in this order. -/
def tableOf (ks : List Nat) : List TzEntry := utcMain ++ ks.flatMap utcAlt ++ namedMain

theorem tableOf_isTable {ks : List Nat} (h : ks.Perm (List.range 8)) : IsTable (tableOf ks) :=
  ⟨_, _, _, _, rfl, .refl _, h, fun _ => .refl _, .refl _⟩

/-- The two tables of the examples. -/
def tableA : List TzEntry := tableOf [0, 1, 2, 3, 4, 5, 6, 7]
def tableB : List TzEntry := tableOf [4, 6, 7, 0, 1, 2, 3, 5]
theorem tableA_isTable : IsTable tableA := tableOf_isTable (by decide)
theorem tableB_isTable : IsTable tableB := tableOf_isTable (by decide)

/-- **C20 (finding).** What is left after taking a zone depends on the order Go's maps happen to be iterated in. -/
theorem C20_left_depends_on_order : ∃ t t' str, IsTable t ∧ IsTable t' ∧
    (popTzOffset t str).1 = "10:00 ".toList ∧ (popTzOffset t' str).1 = "10:00 UTC".toList :=
  ⟨tableA, tableB, "10:00 UTC+0530".toList, tableA_isTable, tableB_isTable, by decide +kernel, by decide +kernel⟩

/-- **C20 (finding).** Even the offset may depend on it: with two offsets in the text. -/
theorem C20_offset_depends_on_order : ∃ t t' str, IsTable t ∧ IsTable t' ∧
    (popTzOffset t str).2.map (·.offset) = some (-18000) ∧ (popTzOffset t' str).2.map (·.offset) = some 19800 :=
  ⟨tableA, tableB, "10:00 GMT-0500 or GMT+05:30".toList, tableA_isTable, tableB_isTable, by decide +kernel, by decide +kernel⟩

/-- **C20 (finding).** The year of a date with dashes is taken for a zone. -/
theorem C20_year_taken {t : List TzEntry} (ht : IsTable t) :
    ∃ tz, popTzOffset t "15-10-1200".toList = ("15-10".toList, some tz) ∧ tz.offset = -43200 :=
  C20_offset_at_end ht (b := "15-1".toList) (c := '0') (neg := true) (h := 12) (m := 0)
    (by unfold Letterless; decide) (by decide) ⟨by decide, by decide, by decide +kernel⟩ false

/-! ## Examples -/

example : ∃ t, IsTable t := ⟨tableA, tableA_isTable⟩

example {t : List TzEntry} (ht : IsTable t) :
    ∃ tz, popTzOffset t "2015-10-12 10:30 est".toList = ("2015-10-12 10:30 ".toList, some tz) ∧ tz.offset = -18000 :=
  C20_name_at_end ht (b := "2015-10-12 10:30".toList) (c := ' ') (name := "EST".toList) (w := "est".toList)
    (by unfold Letterless; decide) (by decide +kernel) (by unfold SameText; decide)

example {t : List TzEntry} (ht : IsTable t) :
    ∃ tz, popTzOffset t "2019-07-17 12:30:00.000-03:30".toList = ("2019-07-17 12:30:00.000".toList, some tz) ∧
      tz.offset = -12600 :=
  C20_offset_at_end ht (b := "2019-07-17 12:30:00.00".toList) (c := '0') (neg := true) (h := 3) (m := 30)
    (by unfold Letterless; decide) (by decide) ⟨by decide, by decide, by decide +kernel⟩ true

example : popTzOffset tableA "15 May 2004".toList = ("15 May 2004".toList, none) := by decide +kernel
example : popTzOffset tableA "Wed Aug 05 12:00:00 EDTERR 2015".toList = ("Wed Aug 05 12:00:00 EDTERR 2015".toList, none) := by
  decide +kernel
example : popTzOffset tableB "Fri Sep 23 2016 10:34:51 GMT+0800 (CST)".toList =
    ("Fri Sep 23 2016 10:34:51 ".toList, some ⟨"UTC+08:00", 28800⟩) := by decide +kernel

end Verif.Props
