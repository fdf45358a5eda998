import Verif.Props.Num
import Verif.Spec.Clean
import Verif.Spec.KeepLaw
import Verif.Lemmas.Xml

/-! # What readers give on clean elements: the pieces -/

namespace JLaw

variable {α β σ γ : Type}

/-- Every value returned satisfies `P`. -/
def Gives (r : Res α) (P : α → Prop) : Prop := ∀ x, r = .ok x → P x

/-- All elements among the nodes are clean. -/
def CleanKids (c : List XMLNode) : Prop := ∀ y ∈ c, ∀ x, Within x y → ¬ Lossy x

theorem Clean.kids {e : Element} (h : Clean e) : CleanKids e.children :=
  fun y hy x hx => h x (.child _ _ _ y hy hx)

theorem CleanKids.elem {c : List XMLNode} (h : CleanKids c) {n a d} (hm : .element n a d ∈ c) :
    Clean ⟨n, a, d⟩ := fun x hx => h _ hm x hx

theorem CleanKids.tail {c : List XMLNode} (h : CleanKids c) : CleanKids c.tail :=
  fun y hy => h y (List.mem_of_mem_tail hy)

theorem Clean.not_lossy {e : Element} (h : Clean e) : ¬ Lossy e.node := h _ .refl

theorem Clean.not_lost {e : Element} (h : Clean e) (hn : e.name ∈ lostTags) : False :=
  h.not_lossy (.tag hn)

/-- Closes goals about clean elements. -/
macro "clean" : tactic => `(tactic| first
  | assumption
  | exact Clean.kids (by assumption)
  | exact CleanKids.tail (by assumption)
  | exact CleanKids.tail (Clean.kids (by assumption)))

namespace Gives

theorem any {r : Res α} : Gives r fun _ => True := fun _ _ => trivial

theorem ok {a : α} {P : α → Prop} (h : P a) : Gives (.ok a) P := fun _ h' => by cases h'; exact h

theorem err (e : Err) {P : α → Prop} : Gives (.err e) P := fun _ h => by cases h

theorem unexpected (o x : Element) {P : α → Prop} : Gives (unexpected o x) P := err _

theorem deep {P : α → Prop} : Gives (.deep : Res α) P := fun _ h => by cases h

theorem mono {r : Res α} {P Q : α → Prop} (h : Gives r P) (hPQ : ∀ x, P x → Q x) : Gives r Q :=
  fun x hx => hPQ x (h x hx)

theorem bind {r : Res α} {f : α → Res β} {P : α → Prop} {Q : β → Prop} (h : Gives r P)
    (hf : ∀ a, P a → Gives (f a) Q) : Gives (r.bind f) Q := by
  intro x hx
  obtain ⟨a, ha, hx⟩ := Res.bind_eq_ok.1 hx
  exact hf a (h a ha) x hx

theorem ite {c : Prop} [Decidable c] {r s : Res α} {P : α → Prop} (h : c → Gives r P)
    (h' : ¬ c → Gives s P) : Gives (if c then r else s) P := by
  split
  · exact h ‹_›
  · exact h' ‹_›

theorem foldRes {step : σ → α → Res σ} {I : σ → Prop} {l : List α}
    (h : ∀ s a, a ∈ l → I s → Gives (step s a) I) {s : σ} (hs : I s) :
    Gives (foldRes step s l) I := by
  induction l generalizing s with
  | nil => exact .ok hs
  | cons a l ih =>
    exact .bind (h s a (by simp) hs) fun s' hs' => ih (fun s b hb => h s b (by simp [hb])) hs'

theorem forElems {step : σ → Element → Res σ} {c : List XMLNode} (I : σ → Prop)
    (hc : CleanKids c) {s : σ} (hs : I s)
    (h : ∀ s x, x.node ∈ c → Clean x → I s → Gives (step s x) I) :
    Gives (forElems step s c) I := by
  refine foldRes (fun s a ha hs => ?_) hs
  cases a with
  | element n a d => exact h s ⟨n, a, d⟩ ha (hc.elem ha) hs
  | _ => exact .ok hs

theorem collectRes {f : α → Res (List β)} {P : β → Prop} {l : List α}
    (h : ∀ a ∈ l, Gives (f a) fun bs => ∀ b ∈ bs, P b) :
    Gives (collectRes f l) fun bs => ∀ b ∈ bs, P b := by
  induction l with
  | nil => exact .ok (by simp)
  | cons a l ih =>
    refine .bind (h a (by simp)) fun bs hbs => .bind (ih fun b hb => h b (by simp [hb])) fun cs hcs => .ok ?_
    intro b hb
    rcases List.mem_append.1 hb with hb | hb
    · exact hbs b hb
    · exact hcs b hb

theorem mixed {p : Element → Res α} {str : String → α} {P : α → Prop} {c : List XMLNode}
    (hc : CleanKids c) (h : ∀ x, Clean x → Gives (p x) P) (hs : ∀ s, P (str s)) :
    Gives (mixed p str c) fun l => ∀ v ∈ l, P v := by
  refine collectRes fun a ha => ?_
  cases a with
  | element n a d => exact .bind (h _ (hc.elem ha)) fun v hv => .ok (by simpa using hv)
  | text s => exact .ok (by simpa using hs s)
  | _ => exact .ok (by simp)

theorem readAll {p : Element → Res α} {P : α → Prop} {c : List XMLNode}
    (hc : CleanKids c) (h : ∀ x, Clean x → Gives (p x) P) :
    Gives (readAll p c) fun l => ∀ v ∈ l, P v := by
  refine collectRes fun a ha => ?_
  cases a with
  | element n a d => exact .bind (h _ (hc.elem ha)) fun v hv => .ok (by simpa using hv)
  | _ => exact .ok (by simp)

theorem readTagged {tag : String} {p : Element → Res α} {P : α → Prop} {c : List XMLNode}
    (hc : CleanKids c) (h : ∀ x, Clean x → Gives (p x) P) :
    Gives (readTagged tag p c) fun l => ∀ v ∈ l, P v := by
  refine collectRes fun a ha => ?_
  cases a with
  | element n a d =>
    exact .ite (fun _ => .bind (h _ (hc.elem ha)) fun v hv => .ok (by simpa using hv))
      fun _ => .ok (by simp)
  | _ => exact .ok (by simp)

theorem cons {t : String} {f : Element → Res α} {arms : List (String × (Element → Res α))}
    {d : Element → Res α} {x : Element} {P : α → Prop} (h : x.name = t → Gives (f x) P)
    (h' : Gives (matchTag arms d x) P) : Gives (matchTag ((t, f) :: arms) d x) P := by
  rw [matchTag_cons]
  exact ite h fun _ => h'

theorem nil {d : Element → Res α} {x : Element} {P : α → Prop} (h : Gives (d x) P) :
    Gives (matchTag [] d x) P := h

/-- The readers of all arms give values with `C` on clean elements. -/
def Arms (arms : List (String × (Element → Res α))) (C : α → Prop) : Prop :=
  ∀ a ∈ arms, ∀ x : Element, x.name = a.1 → Clean x → Gives (a.2 x) C

theorem arms_nil {C : α → Prop} : Arms [] C := fun _ h => by cases h

theorem arms_cons {t : String} {f : Element → Res α} {arms : List (String × (Element → Res α))}
    {C : α → Prop} (h : ∀ x : Element, x.name = t → Clean x → Gives (f x) C) (h' : Arms arms C) :
    Arms ((t, f) :: arms) C := by
  rintro a ha x hn hx
  cases ha with
  | head => exact h x hn hx
  | tail _ ha => exact h' a ha x hn hx

theorem matchTag {arms : List (String × (Element → Res α))} {d : Element → Res α} {x : Element}
    {C : α → Prop} (ha : Arms arms C) (hx : Clean x) (hd : Gives (d x) C) :
    Gives (matchTag arms d x) C := by
  induction arms with
  | nil => exact hd
  | cons a arms ih =>
    exact cons (fun hn => ha a (by simp) x hn hx) (ih fun b hb => ha b (by simp [hb]))

theorem childArms {arms : List (String × (Element → Res γ))} {push : γ → Res σ}
    {C : γ → Prop} {I : σ → Prop} (ha : Arms arms C) (hp : ∀ v, C v → Gives (push v) I) :
    Arms (childArms arms push) I := by
  intro a hm x hn hx
  obtain ⟨b, hb, rfl⟩ := List.mem_map.1 hm
  exact bind (ha b hb x hn hx) hp

theorem skipErr {r : Res α} {P : α → Prop} (h : Gives r P) : Gives r.skipErr (OptKeeps P) := by
  intro o ho x hx
  subst hx
  cases r with
  | ok a => cases ho; exact h _ rfl
  | _ => cases ho

/-! ## Numbers -/

theorem fromNumStr {e : Element} (he : Clean e) (hn : e.name ∈ numberedTags) {s : String}
    (hs : e.attributes.get "Num" = some s) :
    ∃ a, ArticleNumber.fromNumStr s = .ok a ∧ a.Keeps := by
  have h : GoodNumber s := Classical.byContradiction fun h => he.not_lossy (.number hn hs h)
  obtain ⟨a, h1, h2⟩ := h
  exact ⟨a, ((C03_from_num_str_language s).1 a).2 h1, h2⟩

theorem numAttr {e : Element} (he : Clean e) (hn : e.name ∈ numberedTags) :
    Gives (numAttr e) ArticleNumber.Keeps := by
  unfold JLaw.numAttr getAttribute
  split
  · rename_i s hs
    obtain ⟨a, h1, h2⟩ := fromNumStr he hn hs
    simp only [Res.bind, h1]
    exact ok h2
  · exact err _

theorem numParse {e : Element} (he : Clean e) (hn : e.name ∈ numberedTags) :
    Gives (getAttributeWithParse ArticleNumber.parse? e "Num") ArticleNumber.Keeps := by
  unfold getAttributeWithParse
  split
  · rename_i s hs
    obtain ⟨a, h1, h2⟩ := fromNumStr he hn hs
    simp only [ArticleNumber.parse?, h1]
    exact ok h2
  · exact err _

theorem numString {e : Element} (he : Clean e) (hn : e.name ∈ numberedTags) :
    Gives (getAttributeWithParse parseString e "Num")
      fun s => ∃ a, ArticleNumber.fromNumStr s = .ok a ∧ a.Keeps := by
  unfold getAttributeWithParse parseString
  split
  · rename_i s hs
    exact ok (fromNumStr he hn hs)
  · exact err _

end Gives

/-! ## Loop invariants -/

theorem keeps_push {C : α → Prop} {l : List α} {v : α} (h : ∀ c ∈ l, C c) (hv : C v) :
    ∀ c ∈ l ++ [v], C c := by
  intro c hc
  rcases List.mem_append.1 hc with hc | hc
  · exact h c hc
  · rw [List.mem_singleton.1 hc]; exact hv

theorem keeps_append {C : α → Prop} {l m : List α} (h : ∀ c ∈ l, C c) (hm : ∀ c ∈ m, C c) :
    ∀ c ∈ l ++ m, C c := by
  intro c hc
  rcases List.mem_append.1 hc with hc | hc
  · exact h c hc
  · exact hm c hc

theorem OptKeeps.some {P : α → Prop} {v : α} (h : P v) : OptKeeps P (some v) := by
  rintro _ ⟨⟩; exact h

theorem OptKeeps.none {P : α → Prop} : OptKeeps P none := fun _ h => by cases h

theorem keeps_nil {C : α → Prop} : ∀ c ∈ ([] : List α), C c := fun _ h => by cases h

/-- The conditions on the five types of `L` hold for what its readers give on clean elements. -/
structure Lvl.Reads (L : Lvl) (K : Keep L) : Prop where
  plain : ∀ l, Gives (L.textOfStrings l) K.plain
  contents : ∀ e, Clean e → Gives (L.contentsParser e) K.contents
  item : ∀ e, Clean e → Gives (L.itemParser e) K.item
  column : ∀ e, Clean e → Gives (L.columnParser e) K.column
  amend : ∀ e, Clean e → Gives (L.amendParser e) K.amend

/-- Readers treated so far; extended below and in the files after this one. -/
syntax "gives_leaf" : tactic

macro_rules
  | `(tactic| gives_leaf) => `(tactic| assumption)
macro_rules
  | `(tactic| gives_leaf) => `(tactic| with_reducible exact Lvl.Reads.contents (by assumption) _ (by clean))
macro_rules
  | `(tactic| gives_leaf) => `(tactic| with_reducible exact Lvl.Reads.column (by assumption) _ (by clean))
macro_rules
  | `(tactic| gives_leaf) => `(tactic| with_reducible exact Lvl.Reads.amend (by assumption) _ (by clean))
macro_rules
  | `(tactic| gives_leaf) => `(tactic| with_reducible exact Lvl.Reads.plain (by assumption) _)

/-- Goes through a reader. -/
macro "gives" : tactic => `(tactic|
  repeat' with_reducible first
    | exact Gives.err _
    | exact Gives.unexpected _ _
    | gives_leaf
    | refine Gives.bind (by gives_leaf) (fun _ _ => ?_)
    | refine Gives.ite (fun _ => ?_) (fun _ => ?_)
    | refine Gives.bind Gives.any (fun _ _ => ?_)
    | refine Gives.cons (fun _ => ?_) ?_
    | refine Gives.nil ?_
    | refine Gives.arms_cons (fun _ _ _ => ?_) ?_
    | exact Gives.arms_nil
    | refine Gives.ok ?_)

/-- Closes the goals about loop invariants. -/
macro "invs" : tactic => `(tactic| (
  try dsimp only
  repeat' first
    | assumption
    | exact OptKeeps.some (by assumption)
    | exact keeps_push (by assumption) (by assumption)
    | exact keeps_append (by assumption) (by assumption)
    | exact OptKeeps.none
    | exact keeps_nil
    | refine And.intro ?_ ?_))

end JLaw
