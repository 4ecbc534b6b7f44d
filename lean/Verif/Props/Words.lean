import Verif.Lemmas.WordMonths
import Verif.Lemmas.WordTimed
import Verif.Props.Locales
import Verif.Props.Merge
/-! # C53: dates with the name of a month in the language of the locale -/
set_option autoImplicit false
namespace Verif.Props
open Verif.Go Verif.Model Verif.Data Verif.Lemmas Verif.Spec

theorem english_month {m : Int} (h1 : 1 ≤ m) (h2 : m ≤ 12) : m ∈ [1, 2, 3, 4, 5, 6, 7, 8, 9, 10, 11, 12] := by
  have : m = 1 ∨ m = 2 ∨ m = 3 ∨ m = 4 ∨ m = 5 ∨ m = 6 ∨ m = 7 ∨ m = 8 ∨ m = 9 ∨ m = 10 ∨ m = 11 ∨ m = 12 := by omega
  simpa using this

theorem english_facts : ∀ m ∈ ([1, 2, 3, 4, 5, 6, 7, 8, 9, 10, 11, 12] : List Int), englishMonth m ≠ [] ∧ (∀ c ∈ englishMonth m, isSpace c = false) ∧ englishMonth m ≠ ['i', 'n'] ∧
    alwaysKept (englishMonth m) = false ∧ (englishMonth m ∈ monthNames.map (·.1)) ∧ ((englishMonth m).all fun c => !c.isDigit) = true ∧
    (toLower (englishMonth m), m) ∈ monthNames := by decide +kernel

theorem lookup_found {β : Type} {l : List (List Char × β)} {w : List Char} {v : β} (h : l.lookup w = some v) : (w, v) ∈ l := by
  induction l with
  | nil => cases h
  | cons x l ih =>
    rw [List.lookup] at h
    split at h
    · rename_i e
      cases h
      have : w = x.1 := by simpa using e
      rw [this]; simp
    · exact List.mem_cons_of_mem _ (ih h)

theorem writeOut_sub (f : WordForm) {ds : List Char} (D m Y : List Char) :
    (f.writeOut D m Y).map (sub ds) = f.writeOut (D.map (sub ds)) (m.map (sub ds)) (Y.map (sub ds)) := by
  have h1 : sub ds ' ' = ' ' := sub_other (by decide)
  have h2 : sub ds '.' = '.' := sub_other (by decide)
  cases f <;> simp [WordForm.writeOut, WordForm.write, h1, h2]

/-- A word with one translation has it in the own data of the locale or in those of its parent. -/
theorem month_entry {x : LangData × Option LangData} {w m : List Char} (h : translationsOf (mergeLang x.2 x.1) w = [m]) :
    ∃ t ∈ x.1.translations ++ ((x.2.map (·.translations)).getD []), t.1 = w ∧ ∃ r, t.2 = m :: r ∧ ∀ y ∈ r, y = m := by
  have key : ∀ {d : LangData}, (∀ y ∈ translationsOf d w, y = m) → m ∈ translationsOf d w → ∃ t ∈ d.translations, t.1 = w ∧ ∃ r, t.2 = m :: r ∧ ∀ y ∈ r, y = m := by
    intro d h1 h2
    unfold translationsOf at h1 h2
    cases e : d.translations.lookup w with
    | none => rw [e] at h2; cases h2
    | some v =>
      rw [e] at h1 h2
      refine ⟨(w, v), lookup_found e, rfl, ?_⟩
      cases v with
      | nil => cases h2
      | cons a r =>
        simp only [Option.getD_some, List.mem_cons, forall_eq_or_imp] at h1
        exact ⟨r, by rw [h1.1], h1.2⟩
  cases hp : x.2 with
  | none =>
    rw [hp] at h
    obtain ⟨t, ht, h'⟩ := key (d := x.1) (by intro y hy; rw [show translationsOf x.1 w = [m] from h] at hy; simpa using hy) (by rw [show translationsOf x.1 w = [m] from h]; simp)
    exact ⟨t, by simp [ht], h'⟩
  | some p =>
    rw [hp] at h
    have hi := (C43_merge p x.1).words w
    rw [h] at hi
    have h1 : ∀ y ∈ translationsOf x.1 w, y = m := fun y hy => by simpa using (hi y).mpr (Or.inl hy)
    have h2 : ∀ y ∈ translationsOf p w, y = m := fun y hy => by simpa using (hi y).mpr (Or.inr hy)
    rcases (hi m).mp (by simp) with hm | hm
    · obtain ⟨t, ht, h'⟩ := key h1 hm
      exact ⟨t, by simp [ht], h'⟩
    · obtain ⟨t, ht, h'⟩ := key h2 hm
      exact ⟨t, by simp [ht], h'⟩

/-- What follows a date as translated: nothing, or a time of day. -/
def IsEnding (Zo : List Char) : Prop := Zo = [] ∨ ∃ T, IsClockText T ∧ Zo = ' ' :: T

/-- Such dates pass the stages before the individual parsers. -/
theorem word_passed {E : Env} (hE : Surroundings E) (hD : HasLocaleData E) {n : Name} (hn : ReadsWords n) (f : WordForm) {D Y W w : List Char} {m : Int}
    {Z Zo : List Char} {ts : List (List Char)} (hZ : IsTail Z Zo ts) (hend : IsEnding Zo) (hd : Short D) (hy : Four Y) (hW : IsWord E.uni W) (hWr : ∀ c ∈ W, c ∉ replacedChars) (hw : IsWord E.uni w) (h1 : ReadAs E.uni W w) (h2 : ReadAs E.uni w w)
    (hm : MonthWord n w m) (hu : (n, w) ∉ unreadMonths) :
    Passed E.uni E.table (E.lang n) [['t']] (f.write D W Y ++ Z) (f.writeOut D (englishMonth m) Y ++ Zo) ∧ noAmount (f.writeOut D (englishMonth m) Y ++ Zo) = true := by
  obtain ⟨m1, m2, x, hx, rfl, hxw⟩ := hm
  have hmm := english_month m1 m2
  obtain ⟨f1, f2, f3, f4, f5, f6, f7⟩ := english_facts m hmm
  have hlook : (mergeLang x.2 x.1).translations.lookup w = some [englishMonth m] := by
    unfold translationsOf at hxw
    cases e : (mergeLang x.2 x.1).translations.lookup w with
    | none => rw [e] at hxw; cases hxw
    | some v => rw [e] at hxw; simpa using hxw
  have hr := months_read hx
  unfold monthsRead at hr
  rw [Bool.or_eq_true, Bool.or_eq_true] at hr
  have hok : langOk (mergeLang x.2 x.1) = true ∧ wordOk (mergeLang x.2 x.1) w = true := by
    rcases hr with (hr | hr) | hr
    · exact absurd (List.isEmpty_iff.mp hr) (hn.own x hx rfl)
    · rw [List.contains_iff_mem] at hr
      exact absurd hr hn.spaced
    · simp only [mergeLangC_eq, Bool.and_eq_true, List.all_eq_true] at hr
      refine ⟨hr.1, ?_⟩
      obtain ⟨t, ht, ht1, r, ht2, ht3⟩ := month_entry hxw
      have := hr.2 t ht
      rw [ht2, ht1] at this
      simp only [Bool.or_eq_true, Bool.not_eq_true'] at this
      rcases this with (((h | h) | h) | h) | h
      · rw [← Bool.not_eq_true, List.contains_iff_mem] at h
        exact absurd f5 h
      · obtain ⟨c, hc, h⟩ := List.any_eq_true.mp h
        rw [ht3 c hc] at h
        simp at h
      · obtain ⟨c, hc, h⟩ := List.any_eq_true.mp h
        simp only [Bool.and_eq_true, decide_eq_true_eq, Bool.not_eq_true'] at h
        rw [wordChar_ascii hE.uni (hw.chars c hc) h.1] at h
        exact absurd h.2 (by simp)
      · rw [List.contains_iff_mem] at h
        exact absurd h hu
      · exact h
  obtain ⟨a, ds, ha, hds, hda, hya⟩ := month_sub hd hy
  have f6' : ∀ c ∈ englishMonth m, c.isDigit = false := by simpa using f6
  have hpo : stripBraces (f.writeOut D (englishMonth m) Y ++ Zo) = f.writeOut D (englishMonth m) Y ++ Zo ∧
      popTzOffset E.table (f.writeOut D (englishMonth m) Y ++ Zo) = (f.writeOut D (englishMonth m) Y ++ Zo, none) ∧ noAmount (f.writeOut D (englishMonth m) Y ++ Zo) = true := by
    have hplain := List.all_eq_true.mp (wordForms_pass f ha) m hmm
    have hsub := writeOut_sub f (ds := ds) a (englishMonth m) "3456".toList
    rw [hda, hya, map_sub_word f6] at hsub
    rcases hend with rfl | ⟨T, hT, rfl⟩
    · rw [List.append_nil, ← hsub]
      exact plain_out hE.table hplain hds
    · rw [← hsub]
      refine plain_timed hE.table hplain hds hT ?_
      rw [hsub, zeros_append, zeros_writeOut f f6', zeros_digits hd.1.2, zeros_digits hy.1.2, hy.2]
      have hz : zeros (' ' :: T) = ' ' :: zeros T := rfl
      rw [hz]
      have hD : List.replicate D.length '0' = "0".toList ∨ List.replicate D.length '0' = "00".toList := by
        rcases short_len hd with h | h
        · left; rw [h]; rfl
        · right; rw [h]; rfl
      exact List.all_eq_true.mp (List.all_eq_true.mp (wordForms_timed f hD) m hmm) _ (zeros_clock hT)
  have hWne : W ≠ [] := by
    obtain ⟨c, hc, _⟩ := hW.letter
    exact List.ne_nil_of_mem hc
  have lD : D.length < 10 := by rcases short_len hd with h | h <;> omega
  have lY : Y.length < 10 := by have := hy.2; omega
  have hreach := word_reached hE.uni (langOk_iff hok.1) (wordOk_iff hok.2) hw (fun c hc => ⟨hW.chars c hc, hWr c hc⟩) hWne h1 h2 hlook f hd.1 hy.1 hZ lD lY f1 f2 f3 f4 hpo.1
  rw [hD x hx]
  exact ⟨⟨hreach, hpo.2.1⟩, hpo.2.2⟩

/-- **C53** `Parse` asked for a locale that separates words by spaces and has its own list of words, on a day, the name of a month as the data of the locale have it
(full, abbreviated, inflected), and a year, written in any of five ways, gives exactly that day at midnight, with that locale and Period Day, whatever the date order. -/
theorem C53_month_name {E : Env} (hE : Surroundings E) (hD : HasLocaleData E) {l : LocaleInfo} {s : ParserSt} {c : PCfg} (hc : AsksOnly l s c) (hl : ReadsWords l.name) (o : Order)
    (ho : orderLetters (orderIn l.name l.dateOrder c) = o.letters) (f : WordForm) (d W y w : List Char) (m : Int) (hd : Short d) (hy : Four y)
    (hW : IsWord E.uni W) (hWr : ∀ c ∈ W, c ∉ replacedChars) (hw : IsWord E.uni w) (h1 : ReadAs E.uni W w) (h2 : ReadAs E.uni w w)
    (hm : MonthWord l.name w m) (hu : (l.name, w) ∉ unreadMonths) (hdate : IsDate (number y) m (number d)) (hy2 : 2 ≤ number y)
    (hz : ZonesOk c E.now (wallOf (number y) m (number d) 0 0 0 0)) :
    ∃ r, YieldsIn l.name E s c (f.write d W y) .day (number y) m (number d) 0 0 0 0 r := by
  obtain ⟨hp, hn⟩ := word_passed hE hD hl f .nil (Or.inl rfl) hd hy hW hWr hw h1 h2 hm hu
  rw [List.append_nil, List.append_nil] at hp
  rw [List.append_nil] at hn
  obtain ⟨_, _, _, _, _, _, f7⟩ := english_facts m (english_month hm.1 hm.2.1)
  have hne : f.writeOut d (englishMonth m) y ≠ [] := by cases f <;> simp [WordForm.writeOut, WordForm.write]
  have hw : ∃ (w : Order) (s1 : List Char), IsSeparator s1 ∧ f.writeOut d (englishMonth m) y = w.write d (englishMonth m) y s1 [' '] := by
    have hsd : IsSeparator ['.', ' '] := by unfold IsSeparator; decide
    cases f
    · exact ⟨.dmy, [' '], isSep_space, by simp [WordForm.writeOut, WordForm.write, Order.write]⟩
    · exact ⟨.dmy, ['.', ' '], hsd, by simp [WordForm.writeOut, WordForm.write, Order.write]⟩
    · exact ⟨.mdy, [' '], isSep_space, by simp [WordForm.writeOut, Order.write]⟩
    · exact ⟨.mdy, [' '], isSep_space, by simp [WordForm.writeOut, WordForm.write, Order.write]⟩
    · exact ⟨.ymd, [' '], isSep_space, by simp [WordForm.writeOut, WordForm.write, Order.write]⟩
  obtain ⟨w', s1, hs1, hww⟩ := hw
  have habs := C04_month_name { cfgIn l c E.now with dateOrder := o.letters } E.now E.monthFirst none o w' (letters_lower o) d (englishMonth m) y s1 [' '] m hd f7 hy
    hs1 isSep_space hdate hy2
  rw [absolute_letters _ o (by rw [cfgIn_order]; exact ho)] at habs
  rw [show ({ cfgIn l c E.now with dateOrder := o.letters } : Cfg).currentTime = (cfgIn l c E.now).currentTime from rfl, callBase_in hE, ← hww] at habs
  exact locale_yields hE hc.picks hp hn hne (by decide) hdate clock0 hy2 habs hz

theorem alpha_ascii {c : Char} (h : c.isAlpha = true) : c.toNat < 128 := by
  simp only [Char.isAlpha, Char.isUpper, Char.isLower, Bool.or_eq_true, Bool.and_eq_true, decide_eq_true_eq] at h
  have : c.toNat = c.val.toNat := rfl
  rcases h with h | h
  · have h2 : c.val.toNat ≤ 90 := h.2
    omega
  · have h2 : c.val.toNat ≤ 122 := h.2
    omega

/-- ASCII letters become lower case letters, whatever the Unicode tables say of other characters. -/
theorem ascii_readAs {U : Uni} (hU : AsciiUni U) {W : List Char} (h : ∀ c ∈ W, c.isAlpha = true) : ReadAs U W (toLower W) := by
  intro a b hab
  have hA : ∀ c ∈ a ++ W ++ b, c.toNat < 128 := by
    intro c hc
    simp only [List.mem_append] at hc
    rcases hc with (hc | hc) | hc
    · exact (hab c (by simp [hc])).1
    · exact alpha_ascii (h c hc)
    · exact (hab c (by simp [hc])).1
  rw [hU.nfkc _ hA, hU.lower _ hA]
  have key : ∀ l : List Char, (∀ c ∈ l, c.toNat < 128 ∧ c.isAlpha = false) → toLower l = l := by
    intro l hl
    unfold toLower
    have : ∀ c ∈ l, toLowerC c = c := by
      intro c hc
      unfold toLowerC
      split
      · rename_i h'
        exfalso
        have := (hl c hc).2
        unfold Char.isAlpha Char.isUpper at this
        simp only [Bool.or_eq_false_iff] at this
        have h1 : (65 : Nat) ≤ c.toNat := h'.1
        have h2 : c.toNat ≤ 90 := h'.2
        have t := this.1
        have hk : ∀ n < 91, 65 ≤ n → (Char.ofNat n).isUpper = true := by decide +kernel
        have := hk c.toNat (by omega) h1
        rw [Char.ofNat_toNat] at this
        unfold Char.isUpper at this
        rw [this] at t; cases t
      · rfl
    rw [List.map_congr_left this, List.map_id']
  have e1 := key a fun c hc => hab c (by simp [hc])
  have e2 := key b fun c hc => hab c (by simp [hc])
  unfold toLower at e1 e2 ⊢
  rw [List.map_append, List.map_append, e1, e2]

theorem ascii_word {U : Uni} (hU : AsciiUni U) {W : List Char} (hne : W ≠ []) (h : ∀ c ∈ W, c.isAlpha = true) : IsWord U W := by
  refine ⟨fun c hc => ?_, ?_⟩
  · have ha := alpha_ascii (h c hc)
    have hnd : c.isDigit = false := by
      cases hd : c.isDigit with
      | false => rfl
      | true =>
        have hr := digit_range hd
        have hk : ∀ n < 58, (Char.ofNat n).isAlpha = false := by decide +kernel
        have := hk c.toNat (by omega)
        rw [Char.ofNat_toNat, h c hc] at this; cases this
    refine ⟨Or.inl (by rw [hU.isLetter c ha]; exact h c hc), by rw [hU.isNumber c ha]; exact hnd, by rw [hU.isDigit c ha]; exact hnd, ?_⟩
    have hk : ∀ n < 128, (Char.ofNat n).isAlpha = true → isSpace (Char.ofNat n) = false := by decide +kernel
    have := hk c.toNat ha
    rw [Char.ofNat_toNat] at this
    exact this (h c hc)
  · obtain ⟨c, hc⟩ := List.exists_mem_of_ne_nil _ hne
    exact ⟨c, hc, by rw [hU.isLetter c (alpha_ascii (h c hc))]; exact h c hc⟩

theorem alpha_kept {c : Char} (h : c.isAlpha = true) : c ∉ replacedChars := by
  intro hm
  have : ∀ c ∈ replacedChars, c.isAlpha = false := by decide +kernel
  rw [this c hm] at h; cases h

theorem alpha_lower {W : List Char} (h : ∀ c ∈ W, c.isAlpha = true) : ∀ c ∈ toLower W, c.isAlpha = true := by
  intro c hc
  obtain ⟨b, hb, rfl⟩ := List.mem_map.mp hc
  have hk : ∀ n < 128, (Char.ofNat n).isAlpha = true → (toLowerC (Char.ofNat n)).isAlpha = true := by decide +kernel
  have := hk b.toNat (alpha_ascii (h b hb))
  rw [Char.ofNat_toNat] at this
  exact this (h b hb)

/-- **C53** for names of months in ASCII letters, in any letter case. -/
theorem C53_ascii {E : Env} (hE : Surroundings E) (hD : HasLocaleData E) {l : LocaleInfo} {s : ParserSt} {c : PCfg} (hc : AsksOnly l s c) (hl : ReadsWords l.name) (o : Order)
    (ho : orderLetters (orderIn l.name l.dateOrder c) = o.letters) (f : WordForm) (d W y : List Char) (m : Int) (hd : Short d) (hy : Four y)
    (hW : ∀ c ∈ W, c.isAlpha = true) (hne : W ≠ []) (hm : MonthWord l.name (toLower W) m) (hu : (l.name, toLower W) ∉ unreadMonths)
    (hdate : IsDate (number y) m (number d)) (hy2 : 2 ≤ number y) (hz : ZonesOk c E.now (wallOf (number y) m (number d) 0 0 0 0)) :
    ∃ r, YieldsIn l.name E s c (f.write d W y) .day (number y) m (number d) 0 0 0 0 r := by
  have hne' : toLower W ≠ [] := by intro e; exact hne (List.map_eq_nil_iff.mp e)
  have e : toLower (toLower W) = toLower W := by
    unfold toLower
    rw [List.map_map]
    exact List.map_congr_left fun c _ => toLowerC_idem c
  have h2 := ascii_readAs hE.uni (alpha_lower hW)
  rw [e] at h2
  exact C53_month_name hE hD hc hl o ho f d W y (toLower W) m hd hy (ascii_word hE.uni hne hW) (fun c hc => alpha_kept (hW c hc))
    (ascii_word hE.uni hne' (alpha_lower hW)) (ascii_readAs hE.uni hW) h2 hm hu hdate hy2 hz

/-! ## Examples -/

example : ∃ r, YieldsIn "de".toList (fullEnv demoEnv) {} (asked "de") "5. Dezember 2015".toList .day 2015 12 5 0 0 0 0 r := by
  have h : getLocaleData "de".toList = some ⟨"de".toList, "DMY".toList, false, 1⟩ := by decide +kernel
  exact C53_ascii full_ok (full_hasData _) (asked_only h (by decide +kernel)) ⟨by decide +kernel, by decide⟩ .dmy (by decide) .dotted
    "5".toList "Dezember".toList "2015".toList 12 ⟨by unfold IsNumeral; decide, by decide⟩ ⟨by unfold IsNumeral; decide, by decide⟩ (by decide) (by decide)
    ⟨by decide, by decide, (deLang, none), List.mem_of_getElem? (i := 68) rfl, by decide +kernel, by decide +kernel⟩ (by decide +kernel) (by decide) (by decide) (demo_zones _ _)

/-- Unicode tables that know the Cyrillic letters А–я. -/
def cyrillicUni : Uni where
  nfkc := fun s => s
  lower := fun s => s.map fun c => if 0x410 ≤ c.toNat ∧ c.toNat ≤ 0x42f then Char.ofNat (c.toNat + 32) else toLowerC c
  isDigit := Char.isDigit
  isNumber := Char.isDigit
  isLetter := fun c => c.isAlpha || (decide (0x410 ≤ c.toNat) && decide (c.toNat ≤ 0x44f))
  isMark := fun _ => false

theorem cyrillic_ascii : AsciiUni cyrillicUni := by
  refine ⟨fun s _ => rfl, fun s hs => ?_, fun _ _ => rfl, fun _ _ => rfl, fun c hc => ?_, fun _ _ => rfl⟩
  · show s.map _ = s.map _
    refine List.map_congr_left fun c hc => ?_
    have := hs c hc
    rw [if_neg (by omega)]
  · show (c.isAlpha || (decide (0x410 ≤ c.toNat) && decide (c.toNat ≤ 0x44f))) = c.isAlpha
    have : decide (0x410 ≤ c.toNat) = false := by simp; omega
    rw [this]; simp

def cyrillicEnv : Env := fullEnv { demoEnv with uni := cyrillicUni }
theorem cyrillic_ok : Surroundings cyrillicEnv := ⟨cyrillic_ascii, demo_sound.table, demo_sound.clock⟩

theorem cyrillic_wordChars {W : List Char} (h : ∀ c ∈ W, cyrillicUni.isLetter c = true ∧ cyrillicUni.isNumber c = false ∧ cyrillicUni.isDigit c = false ∧ isSpace c = false) : ∀ c ∈ W, WordChar cyrillicUni c :=
  fun c hc => ⟨Or.inl (h c hc).1, (h c hc).2.1, (h c hc).2.2.1, (h c hc).2.2.2⟩

theorem cyrillic_readAs {W w : List Char} (h : (W.map fun c => if 0x410 ≤ c.toNat ∧ c.toNat ≤ 0x42f then Char.ofNat (c.toNat + 32) else toLowerC c) = w) : ReadAs cyrillicUni W w := by
  intro a b hab
  show (a ++ W ++ b).map _ = _
  rw [List.map_append, List.map_append, h]
  have key : ∀ l : List Char, (∀ c ∈ l, c.toNat < 128 ∧ c.isAlpha = false) → (l.map fun c => if 0x410 ≤ c.toNat ∧ c.toNat ≤ 0x42f then Char.ofNat (c.toNat + 32) else toLowerC c) = l := by
    intro l hl
    have : ∀ c ∈ l, (if 0x410 ≤ c.toNat ∧ c.toNat ≤ 0x42f then Char.ofNat (c.toNat + 32) else toLowerC c) = c := by
      intro c hc
      obtain ⟨h1, h2⟩ := hl c hc
      rw [if_neg (by omega)]
      have hk : ∀ n < 128, (Char.ofNat n).isAlpha = false → toLowerC (Char.ofNat n) = Char.ofNat n := by decide +kernel
      have := hk c.toNat h1
      rw [Char.ofNat_toNat] at this
      exact this h2
    rw [List.map_congr_left this, List.map_id']
  rw [key a fun c hc => hab c (by simp [hc]), key b fun c hc => hab c (by simp [hc])]

example : ∃ r, YieldsIn "ru".toList cyrillicEnv {} (asked "ru") "5 Марта 2015".toList .day 2015 3 5 0 0 0 0 r := by
  have h : getLocaleData "ru".toList = some ⟨"ru".toList, "DMY".toList, false, 1⟩ := by decide +kernel
  exact C53_month_name cyrillic_ok (full_hasData _) (asked_only h (by decide +kernel)) ⟨by decide +kernel, by decide⟩ .dmy (by decide) .dayFirst
    "5".toList "Марта".toList "2015".toList "марта".toList 3 ⟨by unfold IsNumeral; decide, by decide⟩ ⟨by unfold IsNumeral; decide, by decide⟩
    ⟨cyrillic_wordChars (by decide +kernel), by decide +kernel⟩ (by decide +kernel)
    ⟨cyrillic_wordChars (by decide +kernel), by decide +kernel⟩
    (cyrillic_readAs (by decide +kernel)) (cyrillic_readAs (by decide +kernel))
    ⟨by decide, by decide, (ruLang, none), List.mem_of_getElem? (i := 413) rfl, by decide +kernel, by decide +kernel⟩ (by decide +kernel) (by decide) (by decide) (demo_zones _ _)

end Verif.Props
