import Verif.Lemmas.Heading

/-!
# How the patterns for item numbers match
-/

namespace JLaw

variable {β : Type}

/-! ## Names of groups -/

/-- The groups that occur in a pattern. -/
def Re.names : Re → List String
  | .eps | .cls _ | .eos => []
  | .seq a b | .alt a b => a.names ++ b.names
  | .star a => a.names
  | .cap n a => n :: a.names

theorem run_names (r : Re) : ∀ s, ∀ x ∈ r.run s, ∀ e ∈ x.1, e.1 ∈ r.names := by
  induction r with
  | eps => intro s x hx e he; simp [Re.run] at hx; simp [hx] at he
  | cls p =>
    intro s x hx e he
    obtain ⟨c, -, -, h⟩ := mem_cls.mp hx
    simp [h] at he
  | eos =>
    intro s x hx e he
    simp only [Re.run] at hx
    split at hx
    · simp at hx; simp [hx] at he
    · simp at hx
  | seq a b iha ihb =>
    intro s x hx e he
    obtain ⟨y, hy, z, hz, rfl⟩ := mem_seq.mp hx
    simp only [Re.names, List.mem_append] at he ⊢
    rcases he with he | he
    · exact Or.inl (iha s y hy e he)
    · exact Or.inr (ihb _ z hz e he)
  | alt a b iha ihb =>
    intro s x hx e he
    simp only [Re.run, Re.names, List.mem_append] at hx ⊢
    rcases hx with hx | hx
    · exact Or.inl (iha s x hx e he)
    · exact Or.inr (ihb s x hx e he)
  | star a iha =>
    intro s
    simp only [Re.run, Re.names]
    generalize s.length = n
    induction n generalizing s with
    | zero => intro x hx e he; simp [starRun] at hx; simp [hx] at he
    | succ n ih =>
      intro x hx e he
      simp only [starRun, List.mem_append, List.mem_flatMap, List.mem_singleton] at hx
      rcases hx with ⟨y, hy, hx⟩ | rfl
      · split at hx
        · obtain ⟨z, hz, rfl⟩ := List.mem_map.mp hx
          rcases List.mem_append.mp he with he | he
          · exact iha s y hy e he
          · exact ih _ z hz e he
        · simp at hx
      · simp at he
  | cap n a iha =>
    intro s x hx e he
    simp only [Re.run, List.mem_map] at hx
    obtain ⟨y, hy, rfl⟩ := hx
    rcases List.mem_cons.mp he with rfl | he
    · simp [Re.names]
    · exact List.mem_cons_of_mem _ (iha s y hy e he)

theorem name_none {r : Re} {s : List Char} {caps : Caps} (h : r.captures s = some caps) {n : String}
    (hn : n ∉ r.names) : caps.name n = none := by
  rw [Re.captures, Option.map_eq_some_iff] at h
  obtain ⟨x, hx, rfl⟩ := h
  have hm := run_names r s x (List.mem_of_mem_head? (by rw [hx]; rfl))
  rw [Caps.name, List.lookup_eq_none_iff]
  intro e he
  have := hm e (List.mem_reverse.mp he)
  rw [bne_iff_ne]
  intro h
  exact hn (h ▸ this)

/-! ## The scripts of items -/

/-- The scripts of an item number. -/
def itemKinds : List (Char → Bool) :=
  [between 'ア' 'ン', between 'あ' 'ん', isKansuji, isZenkaku, between 'Ａ' 'Ｚ', between 'ａ' 'ｚ']

theorem katakana_range {c : Char} (h : between 'ア' 'ン' c = true) : 12450 ≤ c.toNat ∧ c.toNat ≤ 12531 := by
  simpa [between] using h
theorem hiragana_range {c : Char} (h : between 'あ' 'ん' c = true) : 12354 ≤ c.toNat ∧ c.toNat ≤ 12435 := by
  simpa [between] using h
theorem zenkaku_range {c : Char} (h : isZenkaku c = true) : 65296 ≤ c.toNat ∧ c.toNat ≤ 65305 := by
  simpa [isZenkaku, between] using h
theorem upper_range {c : Char} (h : between 'Ａ' 'Ｚ' c = true) : 65313 ≤ c.toNat ∧ c.toNat ≤ 65338 := by
  simpa [between] using h
theorem lower_range {c : Char} (h : between 'ａ' 'ｚ' c = true) : 65345 ≤ c.toNat ∧ c.toNat ≤ 65370 := by
  simpa [between] using h
theorem kansuji_range {c : Char} (h : isKansuji c = true) : 19968 ≤ c.toNat ∧ c.toNat ≤ 30334 :=
  (by decide : ∀ c ∈ "一二三四五六七八九十百千".toList, 19968 ≤ c.toNat ∧ c.toNat ≤ 30334) c
    (isKansuji_mem.mp h)

theorem itemKinds_range {p : Char → Bool} (hp : p ∈ itemKinds) {c : Char} (hc : p c = true) :
    (p = between 'ア' 'ン' ∧ 12450 ≤ c.toNat ∧ c.toNat ≤ 12531) ∨
    (p = between 'あ' 'ん' ∧ 12354 ≤ c.toNat ∧ c.toNat ≤ 12435) ∨
    (p = isKansuji ∧ 19968 ≤ c.toNat ∧ c.toNat ≤ 30334) ∨
    (p = isZenkaku ∧ 65296 ≤ c.toNat ∧ c.toNat ≤ 65305) ∨
    (p = between 'Ａ' 'Ｚ' ∧ 65313 ≤ c.toNat ∧ c.toNat ≤ 65338) ∨
    (p = between 'ａ' 'ｚ' ∧ 65345 ≤ c.toNat ∧ c.toNat ≤ 65370) := by
  simp only [itemKinds, List.mem_cons, List.not_mem_nil, or_false] at hp
  rcases hp with h | h | h | h | h | h <;> rw [h] at hc
  · exact Or.inl ⟨h, katakana_range hc⟩
  · exact Or.inr (Or.inl ⟨h, hiragana_range hc⟩)
  · exact Or.inr (Or.inr (Or.inl ⟨h, kansuji_range hc⟩))
  · exact Or.inr (Or.inr (Or.inr (Or.inl ⟨h, zenkaku_range hc⟩)))
  · exact Or.inr (Or.inr (Or.inr (Or.inr (Or.inl ⟨h, upper_range hc⟩))))
  · exact Or.inr (Or.inr (Or.inr (Or.inr (Or.inr ⟨h, lower_range hc⟩))))

theorem itemKinds_disjoint : Disjoint itemKinds := by
  intro p hp q hq c hpc hqc
  rcases itemKinds_range hp hpc with ⟨rfl, h⟩ | ⟨rfl, h⟩ | ⟨rfl, h⟩ | ⟨rfl, h⟩ | ⟨rfl, h⟩ | ⟨rfl, h⟩ <;>
  rcases itemKinds_range hq hqc with ⟨rfl, h'⟩ | ⟨rfl, h'⟩ | ⟨rfl, h'⟩ | ⟨rfl, h'⟩ | ⟨rfl, h'⟩ | ⟨rfl, h'⟩ <;>
  first | rfl | (exfalso; omega)

theorem itemKinds_nodup : itemKinds.Nodup := by
  have h : (itemKinds.map fun p => [p 'ア', p 'あ', p '一', p '０', p 'Ａ', p 'ａ']).Nodup := by decide
  rw [List.Nodup, List.pairwise_map] at h
  exact h.imp fun hne he => hne (by rw [he])

/-- The parentheses are in no script. -/
theorem itemKinds_paren {p : Char → Bool} (hp : p ∈ itemKinds) : p '（' = false ∧ p '）' = false := by
  constructor
  · cases h : p '（' with
    | false => rfl
    | true =>
      have : '（'.toNat = 65288 := by decide
      rcases itemKinds_range hp h with h | h | h | h | h | h <;> omega
  · cases h : p '）' with
    | false => rfl
    | true =>
      have : '）'.toNat = 65289 := by decide
      rcases itemKinds_range hp h with h | h | h | h | h | h <;> omega

/-- No character of a script is a blank. -/
theorem itemKinds_space {p : Char → Bool} (hp : p ∈ itemKinds) {c : Char} (hc : p c = true) :
    isSpace c = false := by
  simp only [isSpace, Bool.or_eq_false_iff, Bool.and_eq_false_iff, decide_eq_false_iff_not,
    beq_eq_false_iff_ne, ne_eq]
  rcases itemKinds_range hp hc with h | h | h | h | h | h <;> omega

/-- A number of an item: the characters, and whether it is in parentheses. -/
def itemWord (paren : Bool) (w : List Char) : List Char := if paren then '（' :: w ++ ['）'] else w

theorem scripts_eq : [Re.katakana, .hiragana, .kansuji, .zenkaku, .upper, .lower] =
    itemKinds.map fun p => Re.plus (.cls p) := rfl

theorem Re.first_ch (c : Char) (s : List Char) (k : Caps × List Char → Option β) :
    (Re.ch c).first (c :: s) k = k ([], s) := by
  simp [Re.ch]

theorem Re.first_ch_none {c d : Char} (h : d ≠ c) (s : List Char) (k : Caps × List Char → Option β) :
    (Re.ch c).first (d :: s) k = none := by
  simp [Re.ch, h]

theorem first_itemNumber {p : Char → Bool} (hp : p ∈ itemKinds) {w rest : List Char} (hne : w ≠ [])
    (hw : w.all p = true) (paren : Bool) (hr : paren = false → Ends p rest)
    {k : Caps × List Char → Option β} (hk : (k ([], rest)).isSome = true) :
    Re.itemNumber.first (itemWord paren w ++ rest) k = k ([], rest) := by
  obtain ⟨v, hv⟩ := Option.isSome_iff_exists.mp hk
  cases paren with
  | false =>
    obtain ⟨c, w', rfl⟩ := List.exists_cons_of_ne_nil hne
    have hc : c ≠ '（' := by
      rintro rfl
      simp only [List.all_cons, Bool.and_eq_true] at hw
      rw [(itemKinds_paren hp).1] at hw
      cases hw.1
    simp only [itemWord, Bool.false_eq_true, if_false, Re.itemNumber, Re.first_alt]
    rw [scripts_eq, first_scripts itemKinds_disjoint hp hne hw (hr rfl) (Or.inl hk)]
    simp only [Re.seqs, Re.first_seq, List.cons_append]
    rw [Re.first_ch_none hc]
    rfl
  | true =>
    simp only [itemWord, if_true, Re.itemNumber, Re.first_alt, Re.seqs, Re.first_seq,
      List.cons_append, List.append_assoc, List.nil_append]
    rw [Re.first_ch, scripts_eq, first_scripts itemKinds_disjoint hp hne hw]
    · simp only [List.nil_append]
      rw [Re.first_ch, hv]
      rfl
    · exact (itemKinds_paren hp).2
    · left
      simp only [List.nil_append]
      rw [Re.first_ch]
      exact hk

theorem not_sep_of {p : Char → Bool} (hs : p 'の' = false) {w : List Char}
    (hw : w.all p = true) : 'の' ∉ w := fun h => by
  have := List.all_eq_true.mp hw 'の' h
  rw [hs] at this; cases this

/-- The text of branch numbers in one script. -/
def itemFlat (ws : List (List Char)) : List Char := flat (ws.map fun w => ('の', w))

theorem first_itemBranches {p : Char → Bool} (hp : p ∈ itemKinds) (hs : p 'の' = false)
    {ws : List (List Char)} (hws : ∀ w ∈ ws, w ≠ [] ∧ w.all p = true)
    {k : Caps × List Char → Option β} (hk : (k ([], [])).isSome = true) :
    (Re.star (.seq (.ch 'の') .itemNumber)).first (itemFlat ws) k = k ([], []) := by
  induction ws with
  | nil =>
    rw [Re.first_star]
    simp [itemFlat, flat, Re.ch]
  | cons w ws ih =>
    have ih' := ih fun w hw => hws w (by simp [hw])
    obtain ⟨v, hv⟩ := Option.isSome_iff_exists.mp hk
    rw [Re.first_star, Re.first_seq]
    have : itemFlat (w :: ws) = 'の' :: (itemWord false w ++ itemFlat ws) := rfl
    rw [this, Re.first_ch, first_itemNumber hp (hws w (by simp)).1 (hws w (by simp)).2]
    · simp only [List.nil_append]
      rw [if_pos (by simp; omega), ih', hv]
      rfl
    · intro _
      cases ws with
      | nil => trivial
      | cons w' ws' => exact hs
    · simp only [List.nil_append]
      rw [if_pos (by simp; omega), ih', hv]
      rfl

theorem captures_item {p p0 : Char → Bool} (hp : p ∈ itemKinds) (hs : p 'の' = false)
    (hp0 : p0 ∈ itemKinds) (hs0 : p0 'の' = false) (paren : Bool)
    {w : List Char} (hne : w ≠ []) (hw : w.all p0 = true) {ws : List (List Char)}
    (hws : ∀ w ∈ ws, w ≠ [] ∧ w.all p = true) :
    reItem.captures (itemWord paren w ++ itemFlat ws) =
      some (("base_number", itemWord paren w) ::
        (if ws = [] then [] else [("eda_numbers", itemFlat ws)])) := by
  rw [Re.captures_eq]
  simp only [reItem, Re.seqs, Re.first_seq, Re.first_cap]
  have hend : paren = false → Ends p0 (itemFlat ws) := by
    intro _
    cases ws with
    | nil => trivial
    | cons w' ws' => exact hs0
  have hrest : ∀ caps : Caps, ((Re.opt (.cap "eda_numbers" (.plus (.seq (.ch 'の') .itemNumber)))).first
      (itemFlat ws) fun x => (Re.opt (.seqs [.lit ['か', 'ら'], .cap "base_number2" .itemNumber,
        .opt (.cap "eda_numbers2" (.plus (.seq (.ch 'の') .itemNumber))), .lit ['ま', 'で']])).first x.2
        fun y => Re.eos.first y.2 fun z => some (caps ++ (x.1 ++ (y.1 ++ z.1)))) =
      some (caps ++ if ws = [] then [] else [("eda_numbers", itemFlat ws)]) := by
    intro caps
    cases ws with
    | nil =>
      simp [itemFlat, flat, Re.opt, Re.plus, Re.ch, Re.seqs, Re.lit]
    | cons w' ws' =>
      have hx : itemFlat (w' :: ws') = 'の' :: (itemWord false w' ++ itemFlat ws') := rfl
      simp only [Re.opt, Re.first_alt, Re.first_cap, Re.plus, Re.first_seq]
      rw [show ∀ k : Caps × List Char → Option Caps, (Re.ch 'の').first (itemFlat (w' :: ws')) k =
        k ([], itemWord false w' ++ itemFlat ws') from fun k => by rw [hx, Re.first_ch]]
      rw [first_itemNumber hp (hws w' (by simp)).1 (hws w' (by simp)).2]
      · rw [first_itemBranches hp hs fun w hw => hws w (by simp [hw])]
        · simp [Re.seqs, Re.lit, Re.ch]
        · simp [Re.seqs, Re.lit, Re.ch]
      · intro _
        cases ws' with
        | nil => trivial
        | cons w' ws' => exact hs
      · rw [first_itemBranches hp hs fun w hw => hws w (by simp [hw])]
        · simp [Re.seqs, Re.lit, Re.ch]
        · simp [Re.seqs, Re.lit, Re.ch]
  rw [first_itemNumber hp0 hne hw paren hend]
  · simp only [take_run]
    have := hrest [("base_number", itemWord paren w)]
    simp only [Re.seqs, List.cons_append, List.nil_append] at this ⊢
    exact this
  · simp only [take_run]
    have := hrest [("base_number", itemWord paren w)]
    simp only [Re.seqs, List.cons_append, List.nil_append] at this ⊢
    rw [this]
    rfl

/-! ## The number of an item -/

/-- The groups of `parse_item_number_base` for numbers in parentheses. -/
def parenNames : List (String × (Char → Bool)) :=
  [("paren_iroha_katakana", between 'ア' 'ン'), ("paren_iroha_hiragana", between 'あ' 'ん'),
    ("paren_kansuji", isKansuji), ("paren_zenkaku_num", isZenkaku),
    ("paren_zenkaku_upper", between 'Ａ' 'Ｚ'), ("paren_zenkaku_lower", between 'ａ' 'ｚ')]

/-- The groups for numbers without parentheses. -/
def noParenNames : List (String × (Char → Bool)) :=
  [("no_paren_iroha_katakana", between 'ア' 'ン'), ("no_paren_iroha_hiragana", between 'あ' 'ん'),
    ("no_paren_kansuji", isKansuji), ("no_paren_zenkaku_num", isZenkaku),
    ("no_paren_zenkaku_upper", between 'Ａ' 'Ｚ'), ("no_paren_zenkaku_lower", between 'ａ' 'ｚ')]

theorem captures_itemBase {n : String} {p : Char → Bool} (paren : Bool)
    (hn : (n, p) ∈ if paren then parenNames else noParenNames) {w rest : List Char} (hne : w ≠ [])
    (hw : w.all p = true) (hr : paren = false → Ends p rest) :
    reItemBase.captures (itemWord paren w ++ rest) = some [("str", itemWord paren w), (n, w)] := by
  rw [Re.captures_eq, reItemBase, Re.first_cap, Re.first_alt]
  cases paren with
  | false =>
    have hp : p ∈ itemKinds := by
      have := List.mem_map_of_mem (f := Prod.snd) hn
      exact this
    obtain ⟨c, w', rfl⟩ := List.exists_cons_of_ne_nil hne
    have hc : c ≠ '（' := by
      rintro rfl
      simp only [List.all_cons, Bool.and_eq_true] at hw
      rw [(itemKinds_paren hp).1] at hw
      cases hw.1
    have h1 := first_named (l := noParenNames) itemKinds_disjoint itemKinds_nodup hn hne hw (hr rfl)
      (k := fun x => some (("str", (c :: w' ++ rest).take ((c :: w' ++ rest).length - x.2.length)) :: x.1))
      (Or.inl rfl)
    simp only [itemWord, Bool.false_eq_true, if_false]
    rw [take_run] at h1
    refine Eq.trans (congrArg₂ Option.or (x' := none) ?_ h1) ?_
    · simp only [Re.seqs, Re.first_seq, List.cons_append]
      rw [Re.first_ch_none hc]
    · rfl
  | true =>
    have h1 := first_named (l := parenNames) itemKinds_disjoint itemKinds_nodup hn hne hw
      (rest := '）' :: rest) (itemKinds_paren (List.mem_map_of_mem (f := Prod.snd) hn :)).2
      (k := fun x => (Re.ch '）').first x.2 fun y => some (("str", ('（' :: (w ++ '）' :: rest)).take
        (('（' :: (w ++ '）' :: rest)).length - y.2.length)) :: (x.1 ++ y.1))) (by
        left
        rw [Re.first_ch]; rfl)
    rw [Re.first_ch] at h1
    simp only [itemWord, if_true, List.cons_append, List.append_assoc, List.nil_append]
    simp only [Re.seqs, Re.first_seq]
    rw [Re.first_ch]
    simp only [List.nil_append]
    rw [show ('（' :: (w ++ '）' :: rest)) = ('（' :: (w ++ ['）'])) ++ rest by simp] at h1 ⊢
    rw [take_run] at h1
    refine Eq.trans (congrArg₂ _ h1 rfl) ?_
    rfl

theorem parseItemNumberBase_eq (E : Ext) {n : String} {p : Char → Bool} (paren : Bool)
    (hn : (n, p) ∈ if paren then parenNames else noParenNames) {w : List Char} (hne : w ≠ [])
    (hw : w.all p = true) {f : List Char → Res (ItemPattern × Usize)}
    (hf : ∀ s w, firstBranch [("str", s), (n, w)] (itemBranches E) = f w) :
    parseItemNumberBase E (itemWord paren w) = (f w).bind fun r => .ok (some r) := by
  have := captures_itemBase (rest := []) paren hn hne hw fun _ => trivial
  rw [List.append_nil] at this
  rw [parseItemNumberBase, this]
  simp only [hf]

theorem dropWhile_all {p : Char → Bool} {s : List Char} (h : ∀ c ∈ s, p c = false) :
    s.dropWhile p = s := by
  cases s with
  | nil => rfl
  | cons c s => rw [List.dropWhile_cons, h c (by simp)]; rfl

theorem trim_eq {s : List Char} (h : ∀ c ∈ s, isSpace c = false) : trim s = s := by
  rw [trim, dropWhile_all h, dropWhile_all (by simpa using h), List.reverse_reverse]

theorem itemFlat_mem {p : Char → Bool} {ws : List (List Char)}
    (hws : ∀ w ∈ ws, w ≠ [] ∧ w.all p = true) {c : Char} (hc : c ∈ itemFlat ws) :
    c = 'の' ∨ p c = true := by
  simp only [itemFlat, flat, List.mem_flatMap, List.mem_map] at hc
  obtain ⟨b, ⟨w, hw, rfl⟩, hc⟩ := hc
  rcases List.mem_cons.mp hc with rfl | hc
  · exact Or.inl rfl
  · exact Or.inr (List.all_eq_true.mp (hws w hw).2 c hc)

theorem trim_item {p p0 : Char → Bool} (hp : p ∈ itemKinds) (hp0 : p0 ∈ itemKinds) (paren : Bool)
    {w : List Char} (hw : w.all p0 = true) {ws : List (List Char)} (hws : ∀ w ∈ ws, w ≠ [] ∧ w.all p = true) :
    trim (itemWord paren w ++ itemFlat ws) = itemWord paren w ++ itemFlat ws := by
  apply trim_eq
  intro c hc
  rcases List.mem_append.mp hc with hc | hc
  · have : c = '（' ∨ c = '）' ∨ c ∈ w := by
      cases paren
      · exact Or.inr (Or.inr hc)
      · simp only [itemWord, if_true, List.cons_append, List.mem_cons, List.mem_append,
          List.not_mem_nil, or_false] at hc
        rcases hc with h | h | h
        · exact Or.inl h
        · exact Or.inr (Or.inr h)
        · exact Or.inr (Or.inl h)
    rcases this with rfl | rfl | h
    · decide
    · decide
    · exact itemKinds_space hp0 (List.all_eq_true.mp hw c h)
  · rcases itemFlat_mem hws hc with rfl | h
    · decide
    · exact itemKinds_space hp h

theorem collectRes_words (f : List Char → Res (List Usize)) (g : Usize → List Char) (l : List Usize)
    (h : ∀ n ∈ l, f (g n) = .ok [n]) : collectRes f (l.map g) = .ok l := by
  induction l with
  | nil => rfl
  | cons n l ih =>
    simp only [List.map_cons, collectRes, h n (by simp), ih fun m hm => h m (by simp [hm]), Res.bind_ok]
    rfl

/-- Reading a text made of a number and branch numbers in one script. -/
theorem parse_item_text (E : Ext) {p p0 : Char → Bool} (hp : p ∈ itemKinds) (hs : p 'の' = false)
    (hp0 : p0 ∈ itemKinds) (hs0 : p0 'の' = false) (paren : Bool) {w : List Char}
    {g : Usize → List Char} {pat pat' : ItemPattern} {base : Usize} {eda : List Usize}
    (hb : w ≠ [] ∧ w.all p0 = true) (hg : ∀ n ∈ eda, g n ≠ [] ∧ (g n).all p = true)
    (h1 : parseItemNumberBase E (itemWord paren w) = .ok (some (pat, base)))
    (h2 : ∀ n ∈ eda, parseItemNumberBase E (g n) = .ok (some (pat', n))) :
    parseItemNumber E (itemWord paren w ++ itemFlat (eda.map g)) =
      .ok (some ⟨itemWord paren w ++ itemFlat (eda.map g), base, eda, [], pat⟩) := by
  have hws : ∀ w ∈ eda.map g, w ≠ [] ∧ w.all p = true := by
    intro w hw
    obtain ⟨n, hn, rfl⟩ := List.mem_map.mp hw
    exact hg n hn
  have heda : itemEda E (itemFlat (eda.map g)) = .ok eda := by
    simp only [itemEda, itemFlat]
    rw [pieces_flat]
    · rw [List.map_map, show List.map (Prod.snd ∘ fun w => ('の', w)) (eda.map g) = eda.map g by simp]
      apply collectRes_words
      intro n hn
      rw [h2 n hn]; rfl
    · intro b hb
      obtain ⟨w, hw, rfl⟩ := List.mem_map.mp hb
      exact ⟨rfl, not_sep_of hs (hws w hw).2, (hws w hw).1⟩
  have hcap := captures_item hp hs hp0 hs0 paren hb.1 hb.2 hws
  rw [parseItemNumber, trim_item hp hp0 paren hb.2 hws]
  have n1 := name_none hcap (n := "base_number_2") (by decide)
  have n2 := name_none hcap (n := "eda_number_2") (by decide)
  rw [hcap]
  simp only [n1, n2]
  have n3 : Caps.name (("base_number", itemWord paren w) ::
        (if eda.map g = [] then [] else [("eda_numbers", itemFlat (eda.map g))])) "base_number" =
      some (itemWord paren w) := by
    split <;> rfl
  have n4 : Caps.name (("base_number", itemWord paren w) ::
        (if eda.map g = [] then [] else [("eda_numbers", itemFlat (eda.map g))])) "eda_numbers" =
      if eda.map g = [] then none else some (itemFlat (eda.map g)) := by
    split <;> rfl
  rw [n3, n4]
  simp only [Res.unwrap, Res.bind_ok, h1, orNone]
  by_cases he : eda = []
  · subst he
    simp
  · rw [if_neg (by simpa using he)]
    simp [heda]

end JLaw
