import Verif.Lemmas.Parser
/-! # C22–C24: one `Parser`, many calls -/
set_option autoImplicit false
namespace Verif.Props
open Verif.Go Verif.Model Verif.Spec Verif.Data Verif.Lemmas

/-- State reached by calls: settings are as created (parser types maybe defaulted), the remembered locales are
built-in ones, tracked exactly. -/
structure Inv (detect : Option (List Char → List Name)) (ks : List Kind) (s : ParserSt) : Prop where
  detect : s.detect = detect
  types : s.types = ks.map Kind.code ∨ (ks = [] ∧ s.types = defaultTypes)
  builtin : ∀ l ∈ s.used, BuiltIn l
  nodup : (s.used.map (·.name)).Nodup
  tracked : ∀ x, x ∈ s.tracker ↔ x ∈ s.used.map (·.name)

theorem Inv.new (detect : Option (List Char → List Name)) (ks : List Kind) : Inv detect ks (newParser detect (ks.map Kind.code)) :=
  ⟨rfl, Or.inl rfl, by simp [newParser], by simp [newParser], by simp [newParser]⟩

theorem Inv.find_none {detect : Option (List Char → List Name)} {ks : List Kind} {s : ParserSt} (h : Inv detect ks s) :
    s.types.find? (fun t => decide (t > 5)) = none := by
  rcases h.types with e | ⟨_, e⟩
  · rw [e]; exact find_codes ks
  · rw [e]; decide

/-- What `parse` starts from: parser types filled in. -/
def filled (s : ParserSt) : ParserSt := if s.types.isEmpty then { s with types := defaultTypes } else s

theorem Inv.filled {detect : Option (List Char → List Name)} {ks : List Kind} {s : ParserSt} (h : Inv detect ks s) :
    Inv detect ks (filled s) ∧ (Props.filled s).types = (kindsOrDefault ks).map Kind.code ∧ (Props.filled s).used = s.used := by
  unfold Props.filled
  cases ks with
  | nil =>
    have : s.types = [] ∨ s.types = defaultTypes := by
      rcases h.types with e | ⟨_, e⟩
      · exact Or.inl e
      · exact Or.inr e
    rcases this with e | e
    · rw [e]
      refine ⟨⟨h.detect, Or.inr ⟨rfl, rfl⟩, h.builtin, h.nodup, h.tracked⟩, defaultTypes_eq, rfl⟩
    · rw [e]
      refine ⟨h, ?_, rfl⟩
      rw [if_neg (by decide), e]; exact defaultTypes_eq
  | cons k r =>
    have e : s.types = (k :: r).map Kind.code := by
      rcases h.types with e | ⟨e, _⟩
      · exact e
      · simp at e
    have : s.types.isEmpty = false := by rw [e]; rfl
    rw [this]
    refine ⟨h, ?_, rfl⟩
    rw [if_neg (by simp), e]; rfl

theorem parse_eq {P : Parts} {now : Time} {s : ParserSt} {c : Option PCfg} {str : List Char} {formats : List (List Char)}
    (h : s.types.find? (fun t => decide (t > 5)) = none) :
    parse P now s c str formats = parseWithTypes P (filled s) ((c.getD {}).initiate now) str formats := by
  unfold parse filled; rw [h]

theorem saveUsed_inv {detect : Option (List Char → List Name)} {ks : List Kind} {s : ParserSt} (h : Inv detect ks s)
    {l : LocaleInfo} (hl : BuiltIn l) : Inv detect ks (saveUsed s l) := by
  unfold saveUsed
  split
  · exact h
  · rename_i hn
    have hn : l.name ∉ s.tracker := by simpa using hn
    refine ⟨h.detect, h.types, ?_, ?_, ?_⟩
    · intro x hx
      simp only [List.mem_append, List.mem_singleton] at hx
      rcases hx with hx | rfl
      · exact h.builtin x hx
      · exact hl
    · simp only [List.map_append, List.map_cons, List.map_nil]
      rw [List.nodup_append]
      refine ⟨h.nodup, by simp, ?_⟩
      intro a ha b hb
      simp only [List.mem_singleton] at hb
      subst hb
      rintro rfl
      exact hn ((h.tracked _).mpr ha)
    · intro x
      simp [h.tracked x, or_comm]

/-- All locales tried are built-in. -/
theorem applicable_builtin {P : Parts} {s : ParserSt} {c : PCfg} {cfg : Cfg} {str : List Char} {L : List LocaleInfo}
    (hb : ∀ l ∈ s.used, BuiltIn l) (h : getApplicableLocales P s c cfg str = .ok L) : ∀ l ∈ L, BuiltIn l := by
  have hp : ∀ l ∈ previousLocale P s c cfg str, BuiltIn l := by
    intro l hl
    unfold previousLocale at hl
    split at hl
    · rw [Option.mem_toList] at hl
      exact hb l (checkPrevious_mem hl)
    · simp at hl
  have hd : ∀ l ∈ defaultLocales c, BuiltIn l := by
    intro l hl
    unfold defaultLocales at hl
    split at hl
    · simp at hl
    · split at hl
      · exact localeInfos_builtin l hl
      · simp at hl
  unfold getApplicableLocales at h
  dsimp only at h
  split at h
  · injection h with h
    subst h
    intro l hl
    rw [List.mem_append, List.mem_filter] at hl
    rcases hl with hl | ⟨hl, _⟩
    · exact hp l hl
    · exact hd l hl
  · simp at h
  · injection h with h
    subst h
    intro l hl
    rw [List.mem_append, List.mem_filter] at hl
    rcases hl with hl | ⟨hl, _⟩
    · rcases (applicableLoop_spec P cfg _ _ _ _ (fun x => Iff.rfl)).1 l hl with h | h
      · exact hp l h
      · exact localeInfos_builtin l h
    · exact hd l hl

theorem parseWithTypes_inv {detect : Option (List Char → List Name)} {ks : List Kind} {P : Parts} {s : ParserSt}
    (h : Inv detect ks s) (c : PCfg) (str : List Char) (formats : List (List Char)) :
    Inv detect ks (parseWithTypes P s c str formats).1 := by
  unfold parseWithTypes
  split
  · exact h
  · dsimp only
    split
    · exact h
    · split
      · exact h
      · rename_i ls hls
        split
        · rename_i dt l hl
          dsimp only
          split
          · exact saveUsed_inv h (applicable_builtin h.builtin hls l (localeLoop_locale hl).2)
          · exact h
        · exact h

theorem parse_inv {detect : Option (List Char → List Name)} {ks : List Kind} {P : Parts} {s : ParserSt}
    (h : Inv detect ks s) (now : Time) (c : Option PCfg) (str : List Char) (formats : List (List Char)) :
    Inv detect ks (parse P now s c str formats).1 := by
  rw [parse_eq h.find_none]
  exact parseWithTypes_inv h.filled.1 _ _ _

theorem afterCalls_inv {detect : Option (List Char → List Name)} {ks : List Kind} {P : Parts} (calls : List Call) :
    ∀ {s : ParserSt}, Inv detect ks s → Inv detect ks (afterCalls P s calls) := by
  induction calls with
  | nil => intro s h; exact h
  | cons c r ih => intro s h; exact ih (parse_inv h _ _ _ _)

/-! ## The list of locales -/

theorem dataOf_eq (x : Name) : dataOf x = getLocaleData x := by
  unfold dataOf getLocaleData lookup
  congr 2
  funext p
  by_cases h : p.1 = x <;> simp [h]

theorem firsts_nodup {l : List Name} (h : l.Nodup) : firsts l = l := by
  induction l with
  | nil => rfl
  | cons a r ih =>
    rw [List.nodup_cons] at h
    rw [firsts, ih h.2]
    congr 1
    rw [List.filter_eq_self]
    intro x hx
    have : x ≠ a := by rintro rfl; exact h.1 hx
    simpa using this

theorem firsts_append (a b : List Name) : firsts (a ++ b) = firsts a ++ news a b := by
  induction a with
  | nil => rw [news_nil]; rfl
  | cons x r ih =>
    rw [List.cons_append, firsts, ih, firsts, List.filter_append, List.cons_append]
    congr 2
    unfold news
    rw [List.filter_filter]
    congr 1
    funext y
    by_cases h : y = x <;> simp [h]

theorem news_congr {a a' : List Name} (h : ∀ x, x ∈ a ↔ x ∈ a') (b : List Name) : news a b = news a' b := by
  unfold news
  congr 1
  funext y
  by_cases hy : y ∈ a
  · simp [hy, (h y).mp hy]
  · have : y ∉ a' := fun e => hy ((h y).mpr e)
    simp [hy, this]

theorem loop_names (P : Parts) (cfg : Cfg) (strs : List (List Char)) (ls : List LocaleInfo) :
    ∀ (res : List LocaleInfo) (tr : List Name), (∀ x, x ∈ tr ↔ x ∈ res.map (·.name)) →
      (applicableLoop P cfg strs ls res tr).1.map (·.name) = res.map (·.name) ++
        news (res.map (·.name)) ((ls.filter fun l => strs.any (P.applicable cfg l)).map (·.name)) := by
  induction ls with
  | nil => intro res tr h; simp [applicableLoop, news, firsts]
  | cons a r ih =>
    intro res tr h
    unfold applicableLoop
    rw [List.filter_cons]
    by_cases hc : a.name ∈ tr
    · rw [if_pos (by simpa using hc), ih res tr h]
      split
      · rw [List.map_cons, news_old _ ((h _).mp hc)]
      · rfl
    · rw [if_neg (by simpa using hc)]
      split
      · rw [ih _ _ (by intro x; simp [h x, or_comm]), List.map_cons, news_new _ (fun e => hc ((h _).mpr e))]
        simp
      · exact ih res tr h

theorem infos_of_builtin {L : List LocaleInfo} (h : ∀ l ∈ L, BuiltIn l) : (L.map (·.name)).filterMap dataOf = L := by
  induction L with
  | nil => rfl
  | cons a r ih =>
    have ha : dataOf a.name = some a := by rw [dataOf_eq]; exact h a (by simp)
    rw [List.map_cons, List.filterMap_cons, ha, ih fun l hl => h l (List.mem_cons_of_mem _ hl)]

theorem any_dateStrings (P : Parts) (cfg : Cfg) (str : List Char) {l : LocaleInfo} (hl : BuiltIn l) :
    (dateStrings P str).any (P.applicable cfg l) = applies P cfg str l.name := by
  unfold dateStrings applies
  rw [dataOf_eq, show getLocaleData l.name = some l from hl]
  dsimp only
  split
  · simp
  · rename_i h
    have : (P.popTz (P.normalize str)).1 = P.normalize str := by simpa using h
    rw [this]; simp

theorem checkPrevious_names (P : Parts) (cfg : Cfg) (str : List Char) (ls : List LocaleInfo) (h : ∀ l ∈ ls, BuiltIn l) :
    (checkPrevious P cfg (dateStrings P str) ls).map (·.name) = (ls.map (·.name)).find? (applies P cfg str) := by
  induction ls with
  | nil => rfl
  | cons a r ih =>
    unfold checkPrevious
    rw [any_dateStrings P cfg str (h a (by simp)), List.map_cons, List.find?_cons]
    cases applies P cfg str a.name with
    | true => rfl
    | false => simpa using ih fun l hl => h l (List.mem_cons_of_mem _ hl)

theorem defaultLocales_names (c : PCfg) : (defaultLocales c).map (·.name) = defaultCodes c ∧ (defaultCodes c).Nodup := by
  unfold defaultLocales defaultCodes
  by_cases h : c.defaultLanguages = []
  · simp [h]
  · rw [if_neg (by simpa using h), if_neg h]
    cases hg : getLocales [] c.defaultLanguages c.region c.useGivenOrder false with
    | error e => simp
    | ok L =>
      have := C27_loaded _ _ _ _ _ hg
      exact ⟨localeInfos_names this.2.2.1, this.2.1⟩

theorem filter_names (D : List LocaleInfo) (A tr : List Name) (hA : ∀ x, x ∈ tr ↔ x ∈ A)
    (hD : (D.map (·.name)).Nodup) :
    (D.filter fun l => !tr.contains l.name).map (·.name) = news A (D.map (·.name)) := by
  unfold news
  rw [firsts_nodup hD, List.filter_map]
  congr 2
  funext l
  by_cases h : l.name ∈ tr
  · simp [h, (hA _).mp h]
  · have : l.name ∉ A := fun e => h ((hA _).mpr e)
    simp [h, this]

theorem filter_infos (P : Parts) (cfg : Cfg) (str : List Char) {loaded : List Name} (h : ∀ x ∈ loaded, KnownLocale x) :
    ((localeInfos loaded).filter fun l => (dateStrings P str).any (P.applicable cfg l)).map (·.name) =
      loaded.filter (applies P cfg str) := by
  have e := localeInfos_names h
  have e2 : (localeInfos loaded).filter (fun l => (dateStrings P str).any (P.applicable cfg l)) =
      (localeInfos loaded).filter ((applies P cfg str) ∘ (·.name)) := by
    apply List.filter_congr
    intro l hl
    exact any_dateStrings P cfg str (localeInfos_builtin l hl)
  rw [e2, ← List.filter_map, e]

theorem applicable_names {P : Parts} {s : ParserSt} {c : PCfg} {str : List Char} {loaded : List Name}
    (hb : ∀ l ∈ s.used, BuiltIn l)
    (hl : getLocales c.locales (languagesFor P s c str) c.region c.useGivenOrder false = .ok loaded ∨
      (getLocales c.locales (languagesFor P s c str) c.region c.useGivenOrder false = .error .notFound ∧ loaded = [])) :
    getApplicableLocales P s c c.toInternal str =
      .ok (localesTried P c (s.used.map (·.name)) loaded str) := by
  have hprev : (previousLocale P s c c.toInternal str).map (·.name) =
      if c.tryPrevious then ((s.used.map (·.name)).find? (applies P c.toInternal str)).toList else [] := by
    unfold previousLocale
    split
    · rw [← checkPrevious_names P c.toInternal str s.used hb]
      cases checkPrevious P c.toInternal (dateStrings P str) s.used <;> rfl
    · rfl
  have hpn : ((previousLocale P s c c.toInternal str).map (·.name)).Nodup := by
    unfold previousLocale
    split
    · cases checkPrevious P c.toInternal (dateStrings P str) s.used <;> simp
    · simp
  obtain ⟨hdn, hdd⟩ := defaultLocales_names c
  have key : ∃ L, getApplicableLocales P s c c.toInternal str = .ok L ∧ L.map (·.name) =
      firsts ((previousLocale P s c c.toInternal str).map (·.name) ++
        loaded.filter (applies P c.toInternal str) ++ defaultCodes c) := by
    unfold getApplicableLocales
    dsimp only
    rcases hl with hl | ⟨hl, rfl⟩
    · rw [hl]
      have hk := (C27_loaded _ _ _ _ _ hl).2.2.1
      refine ⟨_, rfl, ?_⟩
      rw [List.map_append]
      have h1 := loop_names P c.toInternal (dateStrings P str) (localeInfos loaded)
        (previousLocale P s c c.toInternal str) _ (fun x => Iff.rfl)
      have h2 := (applicableLoop_spec P c.toInternal (dateStrings P str) (localeInfos loaded)
        (previousLocale P s c c.toInternal str) _ (fun x => Iff.rfl)).2
      rw [filter_names _ _ _ h2 (by rw [hdn]; exact hdd), h1, filter_infos P _ _ hk, hdn]
      rw [firsts_append, firsts_append, firsts_nodup hpn]
      congr 1
      apply news_congr
      intro x
      simp only [List.mem_append]
      unfold news
      simp only [List.mem_filter, mem_firsts]
      by_cases hx : x ∈ (previousLocale P s c c.toInternal str).map (·.name)
      · simp [hx]
      · simp [hx]
    · rw [hl]
      refine ⟨_, rfl, ?_⟩
      rw [List.map_append, filter_names _ _ _ (fun x => Iff.rfl) (by rw [hdn]; exact hdd), hdn]
      simp only [List.filter_nil, List.append_nil]
      rw [firsts_append, firsts_nodup hpn]
  obtain ⟨L, h1, h2⟩ := key
  rw [h1]
  congr 1
  unfold localesTried
  rw [← hprev, ← h2]
  exact (infos_of_builtin (applicable_builtin hb h1)).symm

/-! ## Remembered locales -/

/-- The outcome of a call from a state reached by calls. -/
theorem parse_result {detect : Option (List Char → List Name)} {ks : List Kind} {P : Parts} {s : ParserSt}
    (h : Inv detect ks s) (c : Call) {loaded : List Name} (hv : c.cfg.validate = .ok ())
    (hl : getLocales c.cfg.locales (languagesOf P detect c) c.cfg.region c.cfg.useGivenOrder false = .ok loaded ∨
      (getLocales c.cfg.locales (languagesOf P detect c) c.cfg.region c.cfg.useGivenOrder false = .error .notFound ∧
        loaded = [])) :
    (parse P c.now s (some c.cfg) c.str c.formats).2 =
      match firstDate (allOffers P (c.cfg.initiate c.now) (kindsOrDefault ks)
        (localesTried P (c.cfg.initiate c.now) (s.used.map (·.name)) loaded (P.sanitize c.str)) c.str c.formats) with
      | some d => .ok d
      | none => .error .unknownFormat := by
  obtain ⟨h1, h2, h3⟩ := h.filled
  rw [parse_eq h.find_none]
  have hv' : (PCfg.initiate c.cfg c.now).validate = .ok () := hv
  have hlang : languagesFor P (filled s) (PCfg.initiate c.cfg c.now) (P.sanitize c.str) = languagesOf P detect c := by
    unfold languagesFor languagesOf
    rw [h1.detect]
    cases detect with
    | none => rfl
    | some f =>
      have e1 : (PCfg.initiate c.cfg c.now).locales = c.cfg.locales := rfl
      have e2 : (PCfg.initiate c.cfg c.now).languages = c.cfg.languages := rfl
      dsimp only
      rw [e1, e2]
      by_cases ha : c.cfg.locales = [] <;> by_cases hb : c.cfg.languages = [] <;> simp [ha, hb]
  have happ := applicable_names (P := P) (s := filled s) (c := PCfg.initiate c.cfg c.now) (str := P.sanitize c.str)
    (loaded := loaded) h1.builtin (by rw [hlang]; exact hl)
  show (parseWithTypes P (filled s) (PCfg.initiate c.cfg c.now) c.str c.formats).2 = _
  unfold parseWithTypes
  rw [hv']
  dsimp only
  unfold allOffers
  rw [firstDate_cons]
  cases hf : (P.formatted (PCfg.initiate c.cfg c.now).toInternal c.str c.formats).isZero with
  | false => simp
  | true =>
    simp only [Bool.not_true, Bool.false_eq_true, if_false, if_true]
    rw [happ, h3]
    dsimp only
    rw [h2]
    have e := localeLoop_eq P (PCfg.initiate c.cfg c.now) (P.sanitize c.str) c.formats (kindsOrDefault ks)
      (localesTried P (PCfg.initiate c.cfg c.now) (s.used.map (·.name)) loaded (P.sanitize c.str))
    rw [← e]
    cases localeLoop P (PCfg.initiate c.cfg c.now) (PCfg.initiate c.cfg c.now).toInternal
      ((kindsOrDefault ks).map Kind.code) (P.sanitize c.str) c.formats
      (localesTried P (PCfg.initiate c.cfg c.now) (s.used.map (·.name)) loaded (P.sanitize c.str)) with
    | none => rfl
    | some x => rfl

theorem known_ne_nil {l : LocaleInfo} (h : BuiltIn l) : l.name ≠ [] := by
  intro e
  unfold BuiltIn at h
  rw [e] at h
  have : getLocaleData [] = none := by decide +kernel
  rw [this] at h
  simp at h

/-- What a call adds to the remembered locales. -/
theorem parse_used {detect : Option (List Char → List Name)} {ks : List Kind} {P : Parts} {s : ParserSt}
    (hfmt : ∀ cfg s f, (P.formatted cfg s f).locale = []) (h : Inv detect ks s) (c : Call) :
    (parse P c.now s (some c.cfg) c.str c.formats).1.used.map (·.name) =
      firsts (s.used.map (·.name) ++
        rememberedLocales [(c, (parse P c.now s (some c.cfg) c.str c.formats).2)]) := by
  obtain ⟨h1, h2, h3⟩ := h.filled
  have base : firsts (s.used.map (·.name) ++ []) = s.used.map (·.name) := by
    rw [List.append_nil]; exact firsts_nodup h.nodup
  rw [parse_eq h.find_none]
  show (parseWithTypes P (filled s) (PCfg.initiate c.cfg c.now) c.str c.formats).1.used.map _ =
    firsts (_ ++ rememberedLocales [(c, (parseWithTypes P (filled s) (PCfg.initiate c.cfg c.now) c.str c.formats).2)])
  unfold parseWithTypes
  split
  · rw [show rememberedLocales [(c, (_ : Except ParseErr DateRes))] = [] from rfl, base, ← h3]
  · dsimp only
    split
    · rw [show rememberedLocales [(c, (Except.ok (P.formatted (PCfg.initiate c.cfg c.now).toInternal c.str c.formats) :
        Except ParseErr DateRes))] = [] by simp [rememberedLocales, hfmt], base, ← h3]
    · split
      · rw [show rememberedLocales [(c, (_ : Except ParseErr DateRes))] = [] from rfl, base, ← h3]
      · rename_i ls hls
        split
        · rename_i dt l hl
          have hloc := localeLoop_locale hl
          have hb := applicable_builtin h1.builtin hls l hloc.2
          have htp : (PCfg.initiate c.cfg c.now).tryPrevious = c.cfg.tryPrevious := rfl
          dsimp only
          rw [htp]
          cases ht : c.cfg.tryPrevious with
          | false =>
            rw [show rememberedLocales [(c, (Except.ok dt : Except ParseErr DateRes))] = [] by
              simp [rememberedLocales, ht], base, ← h3]
            rfl
          | true =>
            rw [show rememberedLocales [(c, (Except.ok dt : Except ParseErr DateRes))] = [l.name] by
              simp [rememberedLocales, ht, hloc.1, known_ne_nil hb]]
            rw [if_pos rfl, firsts_append, firsts_nodup h.nodup]
            unfold saveUsed
            by_cases hm : l.name ∈ s.used.map (·.name)
            · have : (filled s).tracker.contains l.name = true := by
                simpa using (h1.tracked l.name).mpr (by rw [h3]; exact hm)
              rw [if_pos this, h3, news_old _ hm]
              simp [news, firsts]
            · have : ¬ (filled s).tracker.contains l.name = true := by
                intro e
                exact hm (by rw [← h3]; exact (h1.tracked l.name).mp (by simpa using e))
              rw [if_neg this, news_new _ hm]
              simp [news, firsts, h3]
        · rw [show rememberedLocales [(c, (_ : Except ParseErr DateRes))] = [] from rfl, base, ← h3]

theorem remembered_cons (x : Call × Except ParseErr DateRes) (r : List (Call × Except ParseErr DateRes)) :
    rememberedLocales (x :: r) = rememberedLocales [x] ++ rememberedLocales r := by
  unfold rememberedLocales
  rw [← List.filterMap_append]; rfl

theorem firsts_firsts_append (a b : List Name) : firsts (firsts a ++ b) = firsts (a ++ b) := by
  rw [firsts_append, firsts_append, firsts_nodup (nodup_firsts a)]
  congr 1
  apply news_congr
  intro x; exact mem_firsts a x

theorem afterCalls_used {detect : Option (List Char → List Name)} {ks : List Kind} {P : Parts}
    (hfmt : ∀ cfg s f, (P.formatted cfg s f).locale = []) (calls : List Call) :
    ∀ {s : ParserSt}, Inv detect ks s → (afterCalls P s calls).used.map (·.name) =
      firsts (s.used.map (·.name) ++ rememberedLocales (outcomes P s calls)) := by
  induction calls with
  | nil =>
    intro s h
    rw [show rememberedLocales (outcomes P s []) = [] from rfl, List.append_nil]
    exact (firsts_nodup h.nodup).symm
  | cons c r ih =>
    intro s h
    show (afterCalls P (parse P c.now s (some c.cfg) c.str c.formats).1 r).used.map _ = _
    rw [ih (parse_inv h _ _ _ _), parse_used hfmt h c, firsts_firsts_append, outcomes,
      remembered_cons (c, _) (outcomes P _ r), List.append_assoc]

/-- **C22.** Whatever calls went before: the result of `Parse` is the first date offered – by the caller's formats on
the string as it is, else locale by locale and for each locale kind by kind in the order listed – and an error if no
offer is a date.  Locales come in this order: the first remembered one that applies, if previous locales are to be
tried; the locales loaded that apply; those of the default languages. -/
theorem C22_first (P : Parts) (hfmt : ∀ cfg s f, (P.formatted cfg s f).locale = [])
    (detect : Option (List Char → List Name)) (kinds : List Kind) (before : List Call) (c : Call) (loaded : List Name)
    (hv : c.cfg.validate = .ok ())
    (hl : getLocales c.cfg.locales (languagesOf P detect c) c.cfg.region c.cfg.useGivenOrder false = .ok loaded ∨
      (getLocales c.cfg.locales (languagesOf P detect c) c.cfg.region c.cfg.useGivenOrder false = .error .notFound ∧
        loaded = [])) :
    (parse P c.now (afterCalls P (newParser detect (kinds.map Kind.code)) before) (some c.cfg) c.str c.formats).2 =
      match firstDate (allOffers P (c.cfg.initiate c.now) (kindsOrDefault kinds)
        (localesTried P (c.cfg.initiate c.now)
          (firsts (rememberedLocales (outcomes P (newParser detect (kinds.map Kind.code)) before)))
          loaded (P.sanitize c.str)) c.str c.formats) with
      | some d => .ok d
      | none => .error .unknownFormat := by
  rw [parse_result (afterCalls_inv before (Inv.new detect kinds)) c hv hl,
    afterCalls_used hfmt before (Inv.new detect kinds)]
  rfl

/-- **C22, caller's formats.** A date read with one of the caller's formats is returned whatever the locales are. -/
theorem C22_formats (P : Parts) (detect : Option (List Char → List Name)) (kinds : List Kind) (before : List Call)
    (c : Call) (hv : c.cfg.validate = .ok ())
    (hf : (P.formatted (c.cfg.initiate c.now).toInternal c.str c.formats).isZero = false) :
    (parse P c.now (afterCalls P (newParser detect (kinds.map Kind.code)) before) (some c.cfg) c.str c.formats).2 =
      .ok (P.formatted (c.cfg.initiate c.now).toInternal c.str c.formats) := by
  rw [parse_eq (afterCalls_inv before (Inv.new detect kinds)).find_none]
  unfold parseWithTypes
  rw [show ((some c.cfg).getD {}).initiate c.now = c.cfg.initiate c.now from rfl,
    show (c.cfg.initiate c.now).validate = .ok () from hv]
  simp [hf]

/-- **C24.** Without `TryPreviousLocales` a call gives the same on a used parser as on a new one. -/
theorem C24_history (P : Parts) (detect : Option (List Char → List Name)) (kinds : List Kind) (before : List Call)
    (c : Call) (ht : c.cfg.tryPrevious = false) :
    (parse P c.now (afterCalls P (newParser detect (kinds.map Kind.code)) before) (some c.cfg) c.str c.formats).2 =
    (parse P c.now (newParser detect (kinds.map Kind.code)) (some c.cfg) c.str c.formats).2 := by
  have ha := afterCalls_inv (P := P) before (Inv.new detect kinds)
  have hn := Inv.new detect kinds
  rw [parse_eq ha.find_none, parse_eq hn.find_none]
  obtain ⟨a1, a2, a3⟩ := ha.filled
  obtain ⟨n1, n2, n3⟩ := hn.filled
  generalize filled (afterCalls P (newParser detect (kinds.map Kind.code)) before) = s1 at *
  generalize filled (newParser detect (kinds.map Kind.code)) = s2 at *
  have hts : s1.types = s2.types := by rw [a2, n2]
  show (parseWithTypes P s1 (PCfg.initiate c.cfg c.now) c.str c.formats).2 =
    (parseWithTypes P s2 (PCfg.initiate c.cfg c.now) c.str c.formats).2
  have hg : ∀ str, getApplicableLocales P s1 (PCfg.initiate c.cfg c.now) (PCfg.initiate c.cfg c.now).toInternal str =
      getApplicableLocales P s2 (PCfg.initiate c.cfg c.now) (PCfg.initiate c.cfg c.now).toInternal str := by
    intro str
    unfold getApplicableLocales previousLocale languagesFor
    rw [a1.detect, n1.detect, show (PCfg.initiate c.cfg c.now).tryPrevious = false from ht]
    rfl
  unfold parseWithTypes
  dsimp only
  rw [hg, hts]
  split
  · rfl
  · skip
    split
    · rfl
    · split
      · rfl
      · split <;> rfl

/-- Every locale tried was asked for by the call, or is remembered. -/
theorem tried_asked {P : Parts} {detect : Option (List Char → List Name)} {c : Call} {s : ParserSt} {L : List LocaleInfo}
    (hd : s.detect = detect) 
    (h : getApplicableLocales P s (c.cfg.initiate c.now) (c.cfg.initiate c.now).toInternal (P.sanitize c.str) = .ok L) :
    ∀ l ∈ L, Asks P detect c l.name ∨ (c.cfg.tryPrevious = true ∧ l ∈ s.used) := by
  have hlang : languagesFor P s (PCfg.initiate c.cfg c.now) (P.sanitize c.str) = languagesOf P detect c := by
    unfold languagesFor languagesOf
    rw [hd]
    cases detect with
    | none => rfl
    | some f =>
      have e1 : (PCfg.initiate c.cfg c.now).locales = c.cfg.locales := rfl
      have e2 : (PCfg.initiate c.cfg c.now).languages = c.cfg.languages := rfl
      dsimp only
      rw [e1, e2]
      by_cases ha : c.cfg.locales = [] <;> by_cases hb : c.cfg.languages = [] <;> simp [ha, hb]
  have hp : ∀ l ∈ previousLocale P s (c.cfg.initiate c.now) (c.cfg.initiate c.now).toInternal (P.sanitize c.str),
      c.cfg.tryPrevious = true ∧ l ∈ s.used := by
    intro l hl
    unfold previousLocale at hl
    split at hl
    · rename_i ht
      rw [Option.mem_toList] at hl
      exact ⟨ht, checkPrevious_mem hl⟩
    · simp at hl
  have hdef : ∀ l ∈ defaultLocales (c.cfg.initiate c.now), Asks P detect c l.name := by
    intro l hl
    unfold defaultLocales at hl
    split at hl
    · simp at hl
    · rename_i hne
      split at hl
      · rename_i L' hL
        right
        refine ⟨by simpa [PCfg.initiate] using hne, ?_⟩
        have := C27_loaded _ _ _ _ _ hL
        refine (this.2.2.2.1 l.name).mp ?_
        have e := localeInfos_names this.2.2.1
        rw [← e]; exact List.mem_map_of_mem hl
      · simp at hl
  unfold getApplicableLocales at h
  dsimp only at h
  rw [hlang] at h
  split at h
  · injection h with h
    subst h
    intro l hl
    rw [List.mem_append, List.mem_filter] at hl
    rcases hl with hl | ⟨hl, _⟩
    · exact Or.inr (hp l hl)
    · exact Or.inl (hdef l hl)
  · simp at h
  · rename_i L' hL
    injection h with h
    subst h
    intro l hl
    rw [List.mem_append, List.mem_filter] at hl
    rcases hl with hl | ⟨hl, _⟩
    · rcases (applicableLoop_spec P _ _ _ _ _ (fun x => Iff.rfl)).1 l hl with h | h
      · exact Or.inr (hp l h)
      · left; left
        have := C27_loaded _ _ _ _ _ hL
        refine (this.2.2.2.1 l.name).mp ?_
        have e := localeInfos_names this.2.2.1
        rw [← e]; exact List.mem_map_of_mem h
    · exact Or.inl (hdef l hl)

theorem mem_rememberedLocales {h : List (Call × Except ParseErr DateRes)} {x : Name} (hx : x ∈ rememberedLocales h) :
    ∃ c d, (c, Except.ok d) ∈ h ∧ c.cfg.tryPrevious = true ∧ d.locale = x := by
  unfold rememberedLocales at hx
  rw [List.mem_filterMap] at hx
  obtain ⟨⟨c, o⟩, hm, he⟩ := hx
  cases o with
  | error e => simp at he
  | ok d =>
    dsimp only at he
    split at he
    · rename_i hc
      injection he with he
      exact ⟨c, d, hm, hc.1, he⟩
    · simp at he

/-- A successful call: by the caller's formats, or with a built-in locale asked for or remembered. -/
theorem parse_ok {detect : Option (List Char → List Name)} {ks : List Kind} {P : Parts} {s : ParserSt}
    (h : Inv detect ks s) {c : Call} {d : DateRes} (hd : (parse P c.now s (some c.cfg) c.str c.formats).2 = .ok d) :
    d = P.formatted (c.cfg.initiate c.now).toInternal c.str c.formats ∨
    (KnownLocale d.locale ∧ (Asks P detect c d.locale ∨
      (c.cfg.tryPrevious = true ∧ d.locale ∈ s.used.map (·.name)))) := by
  obtain ⟨h1, h2, h3⟩ := h.filled
  rw [parse_eq h.find_none] at hd
  change (parseWithTypes P (filled s) (PCfg.initiate c.cfg c.now) c.str c.formats).2 = _ at hd
  unfold parseWithTypes at hd
  split at hd
  · simp at hd
  · dsimp only at hd
    split at hd
    · left; injection hd with hd; exact hd.symm
    · split at hd
      · simp at hd
      · rename_i ls hls
        split at hd
        · rename_i dt l hl
          injection hd with hd
          subst hd
          have hloc := localeLoop_locale hl
          right
          rw [hloc.1]
          refine ⟨?_, ?_⟩
          · have hb := applicable_builtin h1.builtin hls l hloc.2
            unfold BuiltIn at hb
            exact (lookup_isSome localeData l.name).mp (by rw [show lookup localeData l.name = some l from hb]; rfl)
          · rcases tried_asked h1.detect hls l hloc.2 with h | ⟨h4, h5⟩
            · exact Or.inl h
            · exact Or.inr ⟨h4, List.mem_map_of_mem (by rw [← h3]; exact h5)⟩
        · simp at hd

/-- The calls made are those recorded. -/
theorem outcomes_ok {detect : Option (List Char → List Name)} {ks : List Kind} {P : Parts} (calls : List Call)
    (hfmt : ∀ cfg s f, (P.formatted cfg s f).locale = []) :
    ∀ {s : ParserSt}, Inv detect ks s → ∀ {c : Call} {d : DateRes}, (c, Except.ok d) ∈ outcomes P s calls → d.locale ≠ [] →
      KnownLocale d.locale ∧ (d.locale ∈ s.used.map (·.name) ∨
        ∃ c' ∈ calls, Asks P detect c' d.locale ∧ (c' = c ∨ c'.cfg.tryPrevious = true)) := by
  induction calls with
  | nil => intro s h c d hm; simp [outcomes] at hm
  | cons a r ih =>
    intro s h c d hm hne
    rw [outcomes, List.mem_cons] at hm
    rcases hm with hm | hm
    · injection hm with e1 e2
      subst e1
      rcases parse_ok h e2.symm with e | ⟨hk, h1 | h1⟩
      · exact absurd (by rw [e]; exact hfmt _ _ _) hne
      · exact ⟨hk, Or.inr ⟨c, by simp, h1, Or.inl rfl⟩⟩
      · exact ⟨hk, Or.inl h1.2⟩
    · obtain ⟨hk, h1⟩ := ih (parse_inv h _ _ _ _) hm hne
      refine ⟨hk, ?_⟩
      rcases h1 with h1 | ⟨c', hc', h1⟩
      · rw [parse_used hfmt h a, mem_firsts, List.mem_append] at h1
        rcases h1 with h1 | h1
        · exact Or.inl h1
        · obtain ⟨c2, d2, hm2, ht2, he2⟩ := mem_rememberedLocales h1
          rw [List.mem_singleton] at hm2
          injection hm2 with e1 e2
          subst e1
          rcases parse_ok h e2.symm with e | ⟨_, h3 | h3⟩
          · exact absurd (by rw [← he2, e]; exact hfmt _ _ _) hne
          · exact Or.inr ⟨c2, by simp, by rw [← he2]; exact h3, Or.inr ht2⟩
          · exact Or.inl (by rw [← he2]; exact h3.2)
      · exact Or.inr ⟨c', by simp [hc'], h1⟩

/-- **C23.** A result that does not come from the caller's formats carries a known locale which the call asked for or –
if previous locales are to be tried – an earlier call with this setting asked for. -/
theorem C23_locale (P : Parts) (hfmt : ∀ cfg s f, (P.formatted cfg s f).locale = [])
    (detect : Option (List Char → List Name)) (kinds : List Kind) (before : List Call) (c : Call) (d : DateRes)
    (h : (parse P c.now (afterCalls P (newParser detect (kinds.map Kind.code)) before) (some c.cfg) c.str c.formats).2 =
      .ok d) :
    d = P.formatted (c.cfg.initiate c.now).toInternal c.str c.formats ∨
    (KnownLocale d.locale ∧ (Asks P detect c d.locale ∨
      (c.cfg.tryPrevious = true ∧ ∃ c' ∈ before, c'.cfg.tryPrevious = true ∧ Asks P detect c' d.locale))) := by
  have hn := Inv.new detect kinds
  have ha := afterCalls_inv (P := P) before hn
  rcases parse_ok ha h with e | ⟨hk, h1 | ⟨h1, h2⟩⟩
  · exact Or.inl e
  · exact Or.inr ⟨hk, Or.inl h1⟩
  · refine Or.inr ⟨hk, Or.inr ⟨h1, ?_⟩⟩
    rw [afterCalls_used hfmt before hn, mem_firsts] at h2
    have h2 : d.locale ∈ rememberedLocales (outcomes P (newParser detect (kinds.map Kind.code)) before) := by simpa [newParser] using h2
    obtain ⟨c2, d2, hm, ht, he⟩ := mem_rememberedLocales h2
    have hne : d2.locale ≠ [] := by
      intro e
      rw [he] at e
      rw [e] at hk
      have : ¬ KnownLocale [] := by decide +kernel
      exact this hk
    obtain ⟨_, h3 | ⟨c', hc', ha', h4⟩⟩ := outcomes_ok before hfmt hn hm hne
    · simp [newParser] at h3
    · refine ⟨c', hc', ?_, by rw [← he]; exact ha'⟩
      rcases h4 with h4 | h4
      · rw [h4]; exact ht
      · exact h4

/-- **C24, a missing configuration** is the same as an empty one. -/
theorem C24_nil (P : Parts) (now : Time) (s : ParserSt) (str : List Char) (formats : List (List Char)) :
    parse P now s none str formats = parse P now s (some {}) str formats := rfl

/-! ## A concrete case -/

/-- Some parts: every locale applies and the absolute parser always finds the first second of 2024, UTC. -/
def someParts : Parts where
  normalize := id
  sanitize := id
  strip := id
  popTz s := (s, none)
  applicable _ _ _ := true
  translate _ _ s _ := [s]
  formatted _ _ _ := DateRes.zero
  timestamp _ _ _ := DateRes.zero
  relative _ _ := DateRes.zero
  absolute _ _ _ := { period := .day, time := goDate 2024 1 1 0 0 0 0 Loc.utc }
  nospace _ _ := DateRes.zero

/-- A call asking for one language, trying previous locales or not. -/
def someCall (lang : String) (prev : Bool) : Call :=
  { now := goDate 2024 5 6 7 8 9 0 Loc.utc, cfg := { languages := [lang.toList], tryPrevious := prev },
    str := "1/1/2024".toList, formats := [] }

/-- The locale of a result. -/
def localeOf : Except ParseErr DateRes → List Char
  | .ok d => d.locale
  | .error _ => ['?']

/-- The hypotheses of `C22_first` hold for such calls, and the locale loaded is the one of the language. -/
example : (someCall "en" true).cfg.validate = .ok () ∧
    getLocales (someCall "en" true).cfg.locales (languagesOf someParts none (someCall "en" true))
      (someCall "en" true).cfg.region (someCall "en" true).cfg.useGivenOrder false = .ok ["en".toList] :=
  ⟨rfl, by decide +kernel⟩

example : ∀ cfg s f, (someParts.formatted cfg s f).locale = [] := fun _ _ _ => rfl

/-- `C24_history` needs its hypothesis: after a French call that remembers, an English one that tries previous locales
gives a French result, though a new parser gives an English one. -/
example :
    localeOf (parse someParts (someCall "en" true).now (afterCalls someParts (newParser none []) [someCall "fr" true])
      (some (someCall "en" true).cfg) (someCall "en" true).str []).2 = "fr".toList ∧
    localeOf (parse someParts (someCall "en" true).now (newParser none [])
      (some (someCall "en" true).cfg) (someCall "en" true).str []).2 = "en".toList ∧
    localeOf (parse someParts (someCall "en" true).now (afterCalls someParts (newParser none []) [someCall "fr" true])
      (some (someCall "en" false).cfg) (someCall "en" true).str []).2 = "en".toList := by
  decide +kernel

/-- Both ways a locale of `C23_locale` can come about. -/
example : rememberedLocales (outcomes someParts (newParser none []) [someCall "fr" true, someCall "de" false]) =
    ["fr".toList] := by decide +kernel

end Verif.Props
