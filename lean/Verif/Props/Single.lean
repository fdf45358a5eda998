import Verif.Props.RoundTrip
import Verif.Reading.Single

/-!
# C60: parts held at most once

For every field that holds one part: the last element with its tag counts, and without one the
field is empty, has its default, or the document is rejected.
-/

namespace JLaw

theorem C60_item (n : Nat) (e : Element) (v : _) (h : Item.parser (L := lvl n) e = .ok v) :
    LastOpt (fun x => Text.fromChildren x.children) "ItemTitle" e.children v.title ∧
    LastReq SentenceOrColumnOrTable.fromElement "ItemSentence" e.children v.sentence := by
  unfold Item.parser ItemOf.parser at h
  have h := (ite_eq_ok h).2
  obtain ⟨_, -, h⟩ := Res.bind_eq_ok.1 h
  obtain ⟨_, -, h⟩ := Res.bind_eq_ok.1 h
  obtain ⟨_, -, h⟩ := Res.bind_eq_ok.1 h
  obtain ⟨s, hs, h⟩ := Res.bind_eq_ok.1 h
  have h0 : LastOpt (fun x => Text.fromChildren x.children) "ItemTitle" e.children s.title :=
    lastOpt_of_rel (forElems_last (fun s => s.title) hs rfl (by last_step ItemOf.step childArms))
  have h1 : LastOpt SentenceOrColumnOrTable.fromElement "ItemSentence" e.children s.sentence :=
    lastOpt_of_rel (forElems_last (fun s => s.sentence) hs rfl (by last_step ItemOf.step childArms))
  split at h
  case' h_2 => cases h
  next hb =>
  rw [hb] at h1
  cases h
  exact ⟨h0, h1⟩

theorem C60_subitem1 (n : Nat) (e : Element) (v : _) (h : Subitem1.parser (L := lvl n) e = .ok v) :
    LastOpt (fun x => Text.fromChildren x.children) "Subitem1Title" e.children v.title ∧
    LastReq SentenceOrColumnOrTable.fromElement "Subitem1Sentence" e.children v.sentence := by
  unfold Subitem1.parser ItemOf.parser at h
  have h := (ite_eq_ok h).2
  obtain ⟨_, -, h⟩ := Res.bind_eq_ok.1 h
  obtain ⟨_, -, h⟩ := Res.bind_eq_ok.1 h
  obtain ⟨_, -, h⟩ := Res.bind_eq_ok.1 h
  obtain ⟨s, hs, h⟩ := Res.bind_eq_ok.1 h
  have h0 : LastOpt (fun x => Text.fromChildren x.children) "Subitem1Title" e.children s.title :=
    lastOpt_of_rel (forElems_last (fun s => s.title) hs rfl (by last_step ItemOf.step childArms))
  have h1 : LastOpt SentenceOrColumnOrTable.fromElement "Subitem1Sentence" e.children s.sentence :=
    lastOpt_of_rel (forElems_last (fun s => s.sentence) hs rfl (by last_step ItemOf.step childArms))
  split at h
  case' h_2 => cases h
  next hb =>
  rw [hb] at h1
  cases h
  exact ⟨h0, h1⟩

theorem C60_subitem2 (n : Nat) (e : Element) (v : _) (h : Subitem2.parser (L := lvl n) e = .ok v) :
    LastOpt (fun x => Text.fromChildren x.children) "Subitem2Title" e.children v.title ∧
    LastReq SentenceOrColumnOrTable.fromElement "Subitem2Sentence" e.children v.sentence := by
  unfold Subitem2.parser ItemOf.parser at h
  have h := (ite_eq_ok h).2
  obtain ⟨_, -, h⟩ := Res.bind_eq_ok.1 h
  obtain ⟨_, -, h⟩ := Res.bind_eq_ok.1 h
  obtain ⟨_, -, h⟩ := Res.bind_eq_ok.1 h
  obtain ⟨s, hs, h⟩ := Res.bind_eq_ok.1 h
  have h0 : LastOpt (fun x => Text.fromChildren x.children) "Subitem2Title" e.children s.title :=
    lastOpt_of_rel (forElems_last (fun s => s.title) hs rfl (by last_step ItemOf.step childArms))
  have h1 : LastOpt SentenceOrColumnOrTable.fromElement "Subitem2Sentence" e.children s.sentence :=
    lastOpt_of_rel (forElems_last (fun s => s.sentence) hs rfl (by last_step ItemOf.step childArms))
  split at h
  case' h_2 => cases h
  next hb =>
  rw [hb] at h1
  cases h
  exact ⟨h0, h1⟩

theorem C60_subitem3 (n : Nat) (e : Element) (v : _) (h : Subitem3.parser (L := lvl n) e = .ok v) :
    LastOpt (fun x => Text.fromChildren x.children) "Subitem3Title" e.children v.title ∧
    LastReq SentenceOrColumnOrTable.fromElement "Subitem3Sentence" e.children v.sentence := by
  unfold Subitem3.parser ItemOf.parser at h
  have h := (ite_eq_ok h).2
  obtain ⟨_, -, h⟩ := Res.bind_eq_ok.1 h
  obtain ⟨_, -, h⟩ := Res.bind_eq_ok.1 h
  obtain ⟨_, -, h⟩ := Res.bind_eq_ok.1 h
  obtain ⟨s, hs, h⟩ := Res.bind_eq_ok.1 h
  have h0 : LastOpt (fun x => Text.fromChildren x.children) "Subitem3Title" e.children s.title :=
    lastOpt_of_rel (forElems_last (fun s => s.title) hs rfl (by last_step ItemOf.step childArms))
  have h1 : LastOpt SentenceOrColumnOrTable.fromElement "Subitem3Sentence" e.children s.sentence :=
    lastOpt_of_rel (forElems_last (fun s => s.sentence) hs rfl (by last_step ItemOf.step childArms))
  split at h
  case' h_2 => cases h
  next hb =>
  rw [hb] at h1
  cases h
  exact ⟨h0, h1⟩

theorem C60_subitem4 (n : Nat) (e : Element) (v : _) (h : Subitem4.parser (L := lvl n) e = .ok v) :
    LastOpt (fun x => Text.fromChildren x.children) "Subitem4Title" e.children v.title ∧
    LastReq SentenceOrColumnOrTable.fromElement "Subitem4Sentence" e.children v.sentence := by
  unfold Subitem4.parser ItemOf.parser at h
  have h := (ite_eq_ok h).2
  obtain ⟨_, -, h⟩ := Res.bind_eq_ok.1 h
  obtain ⟨_, -, h⟩ := Res.bind_eq_ok.1 h
  obtain ⟨_, -, h⟩ := Res.bind_eq_ok.1 h
  obtain ⟨s, hs, h⟩ := Res.bind_eq_ok.1 h
  have h0 : LastOpt (fun x => Text.fromChildren x.children) "Subitem4Title" e.children s.title :=
    lastOpt_of_rel (forElems_last (fun s => s.title) hs rfl (by last_step ItemOf.step childArms))
  have h1 : LastOpt SentenceOrColumnOrTable.fromElement "Subitem4Sentence" e.children s.sentence :=
    lastOpt_of_rel (forElems_last (fun s => s.sentence) hs rfl (by last_step ItemOf.step childArms))
  split at h
  case' h_2 => cases h
  next hb =>
  rw [hb] at h1
  cases h
  exact ⟨h0, h1⟩

theorem C60_subitem5 (n : Nat) (e : Element) (v : _) (h : Subitem5.parser (L := lvl n) e = .ok v) :
    LastOpt (fun x => Text.fromChildren x.children) "Subitem5Title" e.children v.title ∧
    LastReq SentenceOrColumnOrTable.fromElement "Subitem5Sentence" e.children v.sentence := by
  unfold Subitem5.parser ItemOf.parser at h
  have h := (ite_eq_ok h).2
  obtain ⟨_, -, h⟩ := Res.bind_eq_ok.1 h
  obtain ⟨_, -, h⟩ := Res.bind_eq_ok.1 h
  obtain ⟨_, -, h⟩ := Res.bind_eq_ok.1 h
  obtain ⟨s, hs, h⟩ := Res.bind_eq_ok.1 h
  have h0 : LastOpt (fun x => Text.fromChildren x.children) "Subitem5Title" e.children s.title :=
    lastOpt_of_rel (forElems_last (fun s => s.title) hs rfl (by last_step ItemOf.step childArms))
  have h1 : LastOpt SentenceOrColumnOrTable.fromElement "Subitem5Sentence" e.children s.sentence :=
    lastOpt_of_rel (forElems_last (fun s => s.sentence) hs rfl (by last_step ItemOf.step childArms))
  split at h
  case' h_2 => cases h
  next hb =>
  rw [hb] at h1
  cases h
  exact ⟨h0, h1⟩

theorem C60_subitem6 (n : Nat) (e : Element) (v : _) (h : Subitem6.parser (L := lvl n) e = .ok v) :
    LastOpt (fun x => Text.fromChildren x.children) "Subitem6Title" e.children v.title ∧
    LastReq SentenceOrColumnOrTable.fromElement "Subitem6Sentence" e.children v.sentence := by
  unfold Subitem6.parser ItemOf.parser at h
  have h := (ite_eq_ok h).2
  obtain ⟨_, -, h⟩ := Res.bind_eq_ok.1 h
  obtain ⟨_, -, h⟩ := Res.bind_eq_ok.1 h
  obtain ⟨_, -, h⟩ := Res.bind_eq_ok.1 h
  obtain ⟨s, hs, h⟩ := Res.bind_eq_ok.1 h
  have h0 : LastOpt (fun x => Text.fromChildren x.children) "Subitem6Title" e.children s.title :=
    lastOpt_of_rel (forElems_last (fun s => s.title) hs rfl (by last_step ItemOf.step childArms))
  have h1 : LastOpt SentenceOrColumnOrTable.fromElement "Subitem6Sentence" e.children s.sentence :=
    lastOpt_of_rel (forElems_last (fun s => s.sentence) hs rfl (by last_step ItemOf.step childArms))
  split at h
  case' h_2 => cases h
  next hb =>
  rw [hb] at h1
  cases h
  exact ⟨h0, h1⟩

theorem C60_subitem7 (n : Nat) (e : Element) (v : _) (h : Subitem7.parser (L := lvl n) e = .ok v) :
    LastOpt (fun x => Text.fromChildren x.children) "Subitem7Title" e.children v.title ∧
    LastReq SentenceOrColumnOrTable.fromElement "Subitem7Sentence" e.children v.sentence := by
  unfold Subitem7.parser ItemOf.parser at h
  have h := (ite_eq_ok h).2
  obtain ⟨_, -, h⟩ := Res.bind_eq_ok.1 h
  obtain ⟨_, -, h⟩ := Res.bind_eq_ok.1 h
  obtain ⟨_, -, h⟩ := Res.bind_eq_ok.1 h
  obtain ⟨s, hs, h⟩ := Res.bind_eq_ok.1 h
  have h0 : LastOpt (fun x => Text.fromChildren x.children) "Subitem7Title" e.children s.title :=
    lastOpt_of_rel (forElems_last (fun s => s.title) hs rfl (by last_step ItemOf.step childArms))
  have h1 : LastOpt SentenceOrColumnOrTable.fromElement "Subitem7Sentence" e.children s.sentence :=
    lastOpt_of_rel (forElems_last (fun s => s.sentence) hs rfl (by last_step ItemOf.step childArms))
  split at h
  case' h_2 => cases h
  next hb =>
  rw [hb] at h1
  cases h
  exact ⟨h0, h1⟩

theorem C60_subitem8 (n : Nat) (e : Element) (v : _) (h : Subitem8.parser (L := lvl n) e = .ok v) :
    LastOpt (fun x => Text.fromChildren x.children) "Subitem8Title" e.children v.title ∧
    LastReq SentenceOrColumnOrTable.fromElement "Subitem8Sentence" e.children v.sentence := by
  unfold Subitem8.parser ItemOf.parser at h
  have h := (ite_eq_ok h).2
  obtain ⟨_, -, h⟩ := Res.bind_eq_ok.1 h
  obtain ⟨_, -, h⟩ := Res.bind_eq_ok.1 h
  obtain ⟨_, -, h⟩ := Res.bind_eq_ok.1 h
  obtain ⟨s, hs, h⟩ := Res.bind_eq_ok.1 h
  have h0 : LastOpt (fun x => Text.fromChildren x.children) "Subitem8Title" e.children s.title :=
    lastOpt_of_rel (forElems_last (fun s => s.title) hs rfl (by last_step ItemOf.step childArms))
  have h1 : LastOpt SentenceOrColumnOrTable.fromElement "Subitem8Sentence" e.children s.sentence :=
    lastOpt_of_rel (forElems_last (fun s => s.sentence) hs rfl (by last_step ItemOf.step childArms))
  split at h
  case' h_2 => cases h
  next hb =>
  rw [hb] at h1
  cases h
  exact ⟨h0, h1⟩

theorem C60_subitem9 (n : Nat) (e : Element) (v : _) (h : Subitem9.parser (L := lvl n) e = .ok v) :
    LastOpt (fun x => Text.fromChildren x.children) "Subitem9Title" e.children v.title ∧
    LastReq SentenceOrColumnOrTable.fromElement "Subitem9Sentence" e.children v.sentence := by
  unfold Subitem9.parser ItemOf.parser at h
  have h := (ite_eq_ok h).2
  obtain ⟨_, -, h⟩ := Res.bind_eq_ok.1 h
  obtain ⟨_, -, h⟩ := Res.bind_eq_ok.1 h
  obtain ⟨_, -, h⟩ := Res.bind_eq_ok.1 h
  obtain ⟨s, hs, h⟩ := Res.bind_eq_ok.1 h
  have h0 : LastOpt (fun x => Text.fromChildren x.children) "Subitem9Title" e.children s.title :=
    lastOpt_of_rel (forElems_last (fun s => s.title) hs rfl (by last_step ItemOf.step childArms))
  have h1 : LastOpt SentenceOrColumnOrTable.fromElement "Subitem9Sentence" e.children s.sentence :=
    lastOpt_of_rel (forElems_last (fun s => s.sentence) hs rfl (by last_step ItemOf.step childArms))
  split at h
  case' h_2 => cases h
  next hb =>
  rw [hb] at h1
  cases h
  exact ⟨h0, h1⟩

theorem C60_subitem10 (n : Nat) (e : Element) (v : _) (h : Subitem10.parser (L := lvl n) e = .ok v) :
    LastOpt (fun x => Text.fromChildren x.children) "Subitem10Title" e.children v.title ∧
    LastReq SentenceOrColumnOrTable.fromElement "Subitem10Sentence" e.children v.sentence := by
  unfold Subitem10.parser ItemOf.parser at h
  have h := (ite_eq_ok h).2
  obtain ⟨_, -, h⟩ := Res.bind_eq_ok.1 h
  obtain ⟨_, -, h⟩ := Res.bind_eq_ok.1 h
  obtain ⟨_, -, h⟩ := Res.bind_eq_ok.1 h
  obtain ⟨s, hs, h⟩ := Res.bind_eq_ok.1 h
  have h0 : LastOpt (fun x => Text.fromChildren x.children) "Subitem10Title" e.children s.title :=
    lastOpt_of_rel (forElems_last (fun s => s.title) hs rfl (by last_step ItemOf.step childArms))
  have h1 : LastOpt SentenceOrColumnOrTable.fromElement "Subitem10Sentence" e.children s.sentence :=
    lastOpt_of_rel (forElems_last (fun s => s.sentence) hs rfl (by last_step ItemOf.step childArms))
  split at h
  case' h_2 => cases h
  next hb =>
  rw [hb] at h1
  cases h
  exact ⟨h0, h1⟩

theorem C60_class (n : Nat) (e : Element) (v : _) (h : Class.parser (L := lvl n) e = .ok v) :
    LastOpt (fun x => Text.fromChildren x.children) "ClassTitle" e.children v.class_title ∧
    LastReq SentenceOrColumnOrTable.fromElement "ClassSentence" e.children v.class_sentence := by
  unfold Class.parser at h
  have h := (ite_eq_ok h).2
  obtain ⟨_, -, h⟩ := Res.bind_eq_ok.1 h
  obtain ⟨s, hs, h⟩ := Res.bind_eq_ok.1 h
  have h0 : LastOpt (fun x => Text.fromChildren x.children) "ClassTitle" e.children s.class_title :=
    lastOpt_of_rel (forElems_last (fun s => s.class_title) hs rfl (by last_step Class.step))
  have h1 : LastOpt SentenceOrColumnOrTable.fromElement "ClassSentence" e.children s.class_sentence :=
    lastOpt_of_rel (forElems_last (fun s => s.class_sentence) hs rfl (by last_step Class.step))
  split at h
  case' h_2 => cases h
  next hb =>
  rw [hb] at h1
  cases h
  exact ⟨h0, h1⟩

theorem C60_paragraph (n : Nat) (e : Element) (v : _) (h : Paragraph.parser (L := lvl n) e = .ok v) :
    LastOpt Caption.parser "ParagraphCaption" e.children v.caption ∧
    LastOr Text.new (fun x => Text.fromChildren x.children) "ParagraphNum"
      e.children v.paragraph_num := by
  unfold Paragraph.parser at h
  have h := (ite_eq_ok h).2
  obtain ⟨_, -, h⟩ := Res.bind_eq_ok.1 h
  obtain ⟨_, -, h⟩ := Res.bind_eq_ok.1 h
  obtain ⟨_, -, h⟩ := Res.bind_eq_ok.1 h
  obtain ⟨_, -, h⟩ := Res.bind_eq_ok.1 h
  obtain ⟨s, hs, h⟩ := Res.bind_eq_ok.1 h
  have h0 : LastOpt Caption.parser "ParagraphCaption" e.children s.caption :=
    lastOpt_of_rel (forElems_last (fun s => s.caption) hs rfl (by last_step Paragraph.step))
  have h1 : LastOr Text.new (fun x => Text.fromChildren x.children) "ParagraphNum" e.children s.paragraph_num :=
    forElems_over (fun s => s.paragraph_num) hs rfl (by last_step Paragraph.step)
  cases h
  exact ⟨h0, h1⟩

theorem C60_remarks (n : Nat) (e : Element) (v : _) (h : Remarks.parser (L := lvl n) e = .ok v) :
    LastReq RemarksLabel.parser "RemarksLabel" e.children v.label := by
  unfold Remarks.parser at h
  have h := (ite_eq_ok h).2
  obtain ⟨s, hs, h⟩ := Res.bind_eq_ok.1 h
  have h0 : LastOpt RemarksLabel.parser "RemarksLabel" e.children s.label :=
    lastOpt_of_rel (forElems_last (fun s => s.label) hs rfl (by last_step Remarks.step))
  split at h
  case' h_2 => cases h
  next hb =>
  rw [hb] at h0
  cases h
  exact h0

theorem C60_noteStruct (n : Nat) (e : Element) (v : _) (h : NoteStruct.parser (L := lvl n) e = .ok v) :
    LastOpt (fun x => Text.fromChildren x.children) "NoteStructTitle" e.children v.title ∧
    LastReq Note.parser "Note" e.children v.body := by
  unfold NoteStruct.parser BodyStruct.parser at h
  have h := (ite_eq_ok h).2
  obtain ⟨s, hs, h⟩ := Res.bind_eq_ok.1 h
  have h0 : LastOpt (fun x => Text.fromChildren x.children) "NoteStructTitle" e.children s.title :=
    lastOpt_of_rel (forElems_last (fun s => s.title) hs rfl (by last_step BodyStruct.step))
  have h1 : LastOpt Note.parser "Note" e.children s.body :=
    lastOpt_of_rel (forElems_last (fun s => s.body) hs rfl (by last_step BodyStruct.step))
  split at h
  case' h_2 => cases h
  next hb =>
  rw [hb] at h1
  cases h
  exact ⟨h0, h1⟩

theorem C60_styleStruct (n : Nat) (e : Element) (v : _) (h : StyleStruct.parser (L := lvl n) e = .ok v) :
    LastOpt (fun x => Text.fromChildren x.children) "StyleStructTitle" e.children v.title ∧
    LastReq Style.parser "Style" e.children v.body := by
  unfold StyleStruct.parser BodyStruct.parser at h
  have h := (ite_eq_ok h).2
  obtain ⟨s, hs, h⟩ := Res.bind_eq_ok.1 h
  have h0 : LastOpt (fun x => Text.fromChildren x.children) "StyleStructTitle" e.children s.title :=
    lastOpt_of_rel (forElems_last (fun s => s.title) hs rfl (by last_step BodyStruct.step))
  have h1 : LastOpt Style.parser "Style" e.children s.body :=
    lastOpt_of_rel (forElems_last (fun s => s.body) hs rfl (by last_step BodyStruct.step))
  split at h
  case' h_2 => cases h
  next hb =>
  rw [hb] at h1
  cases h
  exact ⟨h0, h1⟩

theorem C60_formatStruct (n : Nat) (e : Element) (v : _) (h : FormatStruct.parser (L := lvl n) e = .ok v) :
    LastOpt (fun x => Text.fromChildren x.children) "FormatStructTitle" e.children v.title ∧
    LastReq Format.parser "Format" e.children v.body := by
  unfold FormatStruct.parser BodyStruct.parser at h
  have h := (ite_eq_ok h).2
  obtain ⟨s, hs, h⟩ := Res.bind_eq_ok.1 h
  have h0 : LastOpt (fun x => Text.fromChildren x.children) "FormatStructTitle" e.children s.title :=
    lastOpt_of_rel (forElems_last (fun s => s.title) hs rfl (by last_step BodyStruct.step))
  have h1 : LastOpt Format.parser "Format" e.children s.body :=
    lastOpt_of_rel (forElems_last (fun s => s.body) hs rfl (by last_step BodyStruct.step))
  split at h
  case' h_2 => cases h
  next hb =>
  rw [hb] at h1
  cases h
  exact ⟨h0, h1⟩

theorem C60_figStruct (n : Nat) (e : Element) (v : _) (h : FigStruct.parser (L := lvl n) e = .ok v) :
    LastOpt (fun x => Text.fromChildren x.children) "FigStructTitle" e.children v.title ∧
    LastReq Fig.parser "Fig" e.children v.body := by
  unfold FigStruct.parser BodyStruct.parser at h
  have h := (ite_eq_ok h).2
  obtain ⟨s, hs, h⟩ := Res.bind_eq_ok.1 h
  have h0 : LastOpt (fun x => Text.fromChildren x.children) "FigStructTitle" e.children s.title :=
    lastOpt_of_rel (forElems_last (fun s => s.title) hs rfl (by last_step BodyStruct.step))
  have h1 : LastOpt Fig.parser "Fig" e.children s.body :=
    lastOpt_of_rel (forElems_last (fun s => s.body) hs rfl (by last_step BodyStruct.step))
  split at h
  case' h_2 => cases h
  next hb =>
  rw [hb] at h1
  cases h
  exact ⟨h0, h1⟩

theorem C60_tableStruct (n : Nat) (e : Element) (v : _) (h : TableStruct.parser (L := lvl n) e = .ok v) :
    LastOpt TextWithWritingMode.parser "TableStructTitle" e.children v.title ∧
    LastReq Table.parser "Table" e.children v.body := by
  unfold TableStruct.parser BodyStruct.parser at h
  have h := (ite_eq_ok h).2
  obtain ⟨s, hs, h⟩ := Res.bind_eq_ok.1 h
  have h0 : LastOpt TextWithWritingMode.parser "TableStructTitle" e.children s.title :=
    lastOpt_of_rel (forElems_last (fun s => s.title) hs rfl (by last_step BodyStruct.step))
  have h1 : LastOpt Table.parser "Table" e.children s.body :=
    lastOpt_of_rel (forElems_last (fun s => s.body) hs rfl (by last_step BodyStruct.step))
  split at h
  case' h_2 => cases h
  next hb =>
  rw [hb] at h1
  cases h
  exact ⟨h0, h1⟩

theorem C60_tocpart (n : Nat) (e : Element) (v : _) (h : TOCPart.parser (L := lvl n) e = .ok v) :
    LastOr Text.new (fun x => Text.fromChildren x.children) "PartTitle" e.children v.title ∧
    LastOpt (fun x => Text.fromChildren x.children) "ArticleRange" e.children v.article_range := by
  unfold TOCPart.parser TOCOf.parser at h
  have h := (ite_eq_ok h).2
  obtain ⟨_, -, h⟩ := Res.bind_eq_ok.1 h
  obtain ⟨_, -, h⟩ := Res.bind_eq_ok.1 h
  obtain ⟨s, hs, h⟩ := Res.bind_eq_ok.1 h
  have h0 : LastOr Text.new (fun x => Text.fromChildren x.children) "PartTitle" e.children s.title :=
    forElems_over (fun s => s.title) hs rfl (by last_step TOCOf.step childArms)
  have h1 : LastOpt (fun x => Text.fromChildren x.children) "ArticleRange" e.children s.article_range :=
    lastOpt_of_rel (forElems_last (fun s => s.article_range) hs rfl (by last_step TOCOf.step childArms))
  cases h
  exact ⟨h0, h1⟩

theorem C60_tocchapter (n : Nat) (e : Element) (v : _) (h : TOCChapter.parser (L := lvl n) e = .ok v) :
    LastOr Text.new (fun x => Text.fromChildren x.children) "ChapterTitle" e.children v.title ∧
    LastOpt (fun x => Text.fromChildren x.children) "ArticleRange" e.children v.article_range := by
  unfold TOCChapter.parser TOCOf.parser at h
  have h := (ite_eq_ok h).2
  obtain ⟨_, -, h⟩ := Res.bind_eq_ok.1 h
  obtain ⟨_, -, h⟩ := Res.bind_eq_ok.1 h
  obtain ⟨s, hs, h⟩ := Res.bind_eq_ok.1 h
  have h0 : LastOr Text.new (fun x => Text.fromChildren x.children) "ChapterTitle" e.children s.title :=
    forElems_over (fun s => s.title) hs rfl (by last_step TOCOf.step childArms)
  have h1 : LastOpt (fun x => Text.fromChildren x.children) "ArticleRange" e.children s.article_range :=
    lastOpt_of_rel (forElems_last (fun s => s.article_range) hs rfl (by last_step TOCOf.step childArms))
  cases h
  exact ⟨h0, h1⟩

theorem C60_tocsection (n : Nat) (e : Element) (v : _) (h : TOCSection.parser (L := lvl n) e = .ok v) :
    LastOr Text.new (fun x => Text.fromChildren x.children) "SectionTitle" e.children v.title ∧
    LastOpt (fun x => Text.fromChildren x.children) "ArticleRange" e.children v.article_range := by
  unfold TOCSection.parser TOCOf.parser at h
  have h := (ite_eq_ok h).2
  obtain ⟨_, -, h⟩ := Res.bind_eq_ok.1 h
  obtain ⟨_, -, h⟩ := Res.bind_eq_ok.1 h
  obtain ⟨s, hs, h⟩ := Res.bind_eq_ok.1 h
  have h0 : LastOr Text.new (fun x => Text.fromChildren x.children) "SectionTitle" e.children s.title :=
    forElems_over (fun s => s.title) hs rfl (by last_step TOCOf.step childArms TOCSectionContents.arms)
  have h1 : LastOpt (fun x => Text.fromChildren x.children) "ArticleRange" e.children s.article_range :=
    lastOpt_of_rel (forElems_last (fun s => s.article_range) hs rfl (by last_step TOCOf.step childArms TOCSectionContents.arms))
  cases h
  exact ⟨h0, h1⟩

theorem C60_tocsubsection (n : Nat) (e : Element) (v : _) (h : TOCSubsection.parser (L := lvl n) e = .ok v) :
    LastOr Text.new (fun x => Text.fromChildren x.children) "SubsectionTitle" e.children v.title ∧
    LastOpt (fun x => Text.fromChildren x.children) "ArticleRange" e.children v.article_range := by
  unfold TOCSubsection.parser TOCOf.parser at h
  have h := (ite_eq_ok h).2
  obtain ⟨_, -, h⟩ := Res.bind_eq_ok.1 h
  obtain ⟨_, -, h⟩ := Res.bind_eq_ok.1 h
  obtain ⟨s, hs, h⟩ := Res.bind_eq_ok.1 h
  have h0 : LastOr Text.new (fun x => Text.fromChildren x.children) "SubsectionTitle" e.children s.title :=
    forElems_over (fun s => s.title) hs rfl (by last_step TOCOf.step childArms)
  have h1 : LastOpt (fun x => Text.fromChildren x.children) "ArticleRange" e.children s.article_range :=
    lastOpt_of_rel (forElems_last (fun s => s.article_range) hs rfl (by last_step TOCOf.step childArms))
  cases h
  exact ⟨h0, h1⟩

theorem C60_tocdivision (n : Nat) (e : Element) (v : _) (h : TOCDivision.parser (L := lvl n) e = .ok v) :
    LastOr Text.new (fun x => Text.fromChildren x.children) "DivisionTitle" e.children v.title ∧
    LastOpt (fun x => Text.fromChildren x.children) "ArticleRange" e.children v.article_range := by
  unfold TOCDivision.parser TOCOf.parser at h
  have h := (ite_eq_ok h).2
  obtain ⟨_, -, h⟩ := Res.bind_eq_ok.1 h
  obtain ⟨_, -, h⟩ := Res.bind_eq_ok.1 h
  obtain ⟨s, hs, h⟩ := Res.bind_eq_ok.1 h
  have h0 : LastOr Text.new (fun x => Text.fromChildren x.children) "DivisionTitle" e.children s.title :=
    forElems_over (fun s => s.title) hs rfl (by last_step TOCOf.step childArms)
  have h1 : LastOpt (fun x => Text.fromChildren x.children) "ArticleRange" e.children s.article_range :=
    lastOpt_of_rel (forElems_last (fun s => s.article_range) hs rfl (by last_step TOCOf.step childArms))
  cases h
  exact ⟨h0, h1⟩

theorem C60_tocarticle (n : Nat) (e : Element) (v : _) (h : TOCArticle.parser (L := lvl n) e = .ok v) :
    LastOr Text.new (fun x => Text.fromChildren x.children) "ArticleTitle"
      e.children v.article_title ∧
    LastReq Caption.parser "ArticleCaption" e.children v.article_caption := by
  unfold TOCArticle.parser at h
  have h := (ite_eq_ok h).2
  obtain ⟨_, -, h⟩ := Res.bind_eq_ok.1 h
  obtain ⟨_, -, h⟩ := Res.bind_eq_ok.1 h
  obtain ⟨s, hs, h⟩ := Res.bind_eq_ok.1 h
  have h0 : LastOr Text.new (fun x => Text.fromChildren x.children) "ArticleTitle" e.children s.article_title :=
    forElems_over (fun s => s.article_title) hs rfl (by last_step TOCArticle.step)
  have h1 : LastOpt Caption.parser "ArticleCaption" e.children s.article_caption :=
    lastOpt_of_rel (forElems_last (fun s => s.article_caption) hs rfl (by last_step TOCArticle.step))
  split at h
  case' h_2 => cases h
  next hb =>
  rw [hb] at h1
  cases h
  exact ⟨h0, h1⟩

theorem C60_tocsupplprovision (n : Nat) (e : Element) (v : _) (h : TOCSupplProvision.parser (L := lvl n) e = .ok v) :
    LastOr Text.new (fun x => Text.fromChildren x.children) "SupplProvisionLabel"
      e.children v.suppl_provision_label ∧
    LastOpt (fun x => Text.fromChildren x.children) "ArticleRange" e.children v.article_range := by
  unfold TOCSupplProvision.parser at h
  have h := (ite_eq_ok h).2
  obtain ⟨s, hs, h⟩ := Res.bind_eq_ok.1 h
  have h0 : LastOr Text.new (fun x => Text.fromChildren x.children) "SupplProvisionLabel" e.children s.suppl_provision_label :=
    forElems_over (fun s => s.suppl_provision_label) hs rfl (by last_step TOCSupplProvision.step)
  have h1 : LastOpt (fun x => Text.fromChildren x.children) "ArticleRange" e.children s.article_range :=
    lastOpt_of_rel (forElems_last (fun s => s.article_range) hs rfl (by last_step TOCSupplProvision.step))
  cases h
  exact ⟨h0, h1⟩

theorem C60_toc (n : Nat) (e : Element) (v : _) (h : TOC.parser (L := lvl n) e = .ok v) :
    LastOpt (fun x => Text.fromChildren x.children) "TOCLabel" e.children v.toc_label ∧
    LastOpt (fun x => Text.fromChildren x.children) "TOCPreambleLabel"
      e.children v.toc_preamble_label ∧
    LastOpt TOCSupplProvision.parser "TOCSupplProvision" e.children v.toc_suppl_provision := by
  unfold TOC.parser at h
  have h := (ite_eq_ok h).2
  obtain ⟨s, hs, h⟩ := Res.bind_eq_ok.1 h
  have h0 : LastOpt (fun x => Text.fromChildren x.children) "TOCLabel" e.children s.label :=
    lastOpt_of_rel (forElems_last (fun s => s.label) hs rfl (by last_step TOC.step))
  have h1 : LastOpt (fun x => Text.fromChildren x.children) "TOCPreambleLabel" e.children s.preamble_label :=
    lastOpt_of_rel (forElems_last (fun s => s.preamble_label) hs rfl (by last_step TOC.step))
  have h2 : LastOpt TOCSupplProvision.parser "TOCSupplProvision" e.children s.suppl_provision :=
    lastOpt_of_rel (forElems_last (fun s => s.suppl_provision) hs rfl (by last_step TOC.step))
  cases h
  exact ⟨h0, h1, h2⟩

theorem C60_appdxtable (n : Nat) (e : Element) (v : _) (h : AppdxTable.parser (L := lvl n) e = .ok v) :
    LastOpt TextWithWritingMode.parser "AppdxTableTitle" e.children v.title ∧
    LastOpt (fun x => Text.fromChildren x.children) "RelatedArticleNum"
      e.children v.related_article_num ∧
    LastOpt Remarks.parser "Remarks" e.children v.remarks := by
  unfold AppdxTable.parser AppdxOf.parser at h
  have h := (ite_eq_ok h).2
  obtain ⟨_, -, h⟩ := Res.bind_eq_ok.1 h
  obtain ⟨s, hs, h⟩ := Res.bind_eq_ok.1 h
  have h0 : LastOpt TextWithWritingMode.parser "AppdxTableTitle" e.children s.title :=
    lastOpt_of_rel (forElems_last (fun s => s.title) hs rfl (by last_step AppdxOf.step childArms AppdxTableContents.arms))
  have h1 : LastOpt (fun x => Text.fromChildren x.children) "RelatedArticleNum" e.children s.related_article_num :=
    lastOpt_of_rel (forElems_last (fun s => s.related_article_num) hs rfl (by last_step AppdxOf.step childArms AppdxTableContents.arms))
  have h2 : LastOpt Remarks.parser "Remarks" e.children s.remarks :=
    lastOpt_of_rel (forElems_last (fun s => s.remarks) hs rfl (by last_step AppdxOf.step childArms AppdxTableContents.arms))
  cases h
  exact ⟨h0, h1, h2⟩

theorem C60_appdxnote (n : Nat) (e : Element) (v : _) (h : AppdxNote.parser (L := lvl n) e = .ok v) :
    LastOpt TextWithWritingMode.parser "AppdxNoteTitle" e.children v.title ∧
    LastOpt (fun x => Text.fromChildren x.children) "RelatedArticleNum"
      e.children v.related_article_num ∧
    LastOpt Remarks.parser "Remarks" e.children v.remarks := by
  unfold AppdxNote.parser AppdxOf.parser at h
  have h := (ite_eq_ok h).2
  obtain ⟨_, -, h⟩ := Res.bind_eq_ok.1 h
  obtain ⟨s, hs, h⟩ := Res.bind_eq_ok.1 h
  have h0 : LastOpt TextWithWritingMode.parser "AppdxNoteTitle" e.children s.title :=
    lastOpt_of_rel (forElems_last (fun s => s.title) hs rfl (by last_step AppdxOf.step childArms AppdxNoteContents.arms))
  have h1 : LastOpt (fun x => Text.fromChildren x.children) "RelatedArticleNum" e.children s.related_article_num :=
    lastOpt_of_rel (forElems_last (fun s => s.related_article_num) hs rfl (by last_step AppdxOf.step childArms AppdxNoteContents.arms))
  have h2 : LastOpt Remarks.parser "Remarks" e.children s.remarks :=
    lastOpt_of_rel (forElems_last (fun s => s.remarks) hs rfl (by last_step AppdxOf.step childArms AppdxNoteContents.arms))
  cases h
  exact ⟨h0, h1, h2⟩

theorem C60_appdxstyle (n : Nat) (e : Element) (v : _) (h : AppdxStyle.parser (L := lvl n) e = .ok v) :
    LastOpt TextWithWritingMode.parser "AppdxStyleTitle" e.children v.title ∧
    LastOpt (fun x => Text.fromChildren x.children) "RelatedArticleNum"
      e.children v.related_article_num ∧
    LastOpt Remarks.parser "Remarks" e.children v.remarks := by
  unfold AppdxStyle.parser AppdxOf.parser at h
  have h := (ite_eq_ok h).2
  obtain ⟨_, -, h⟩ := Res.bind_eq_ok.1 h
  obtain ⟨s, hs, h⟩ := Res.bind_eq_ok.1 h
  have h0 : LastOpt TextWithWritingMode.parser "AppdxStyleTitle" e.children s.title :=
    lastOpt_of_rel (forElems_last (fun s => s.title) hs rfl (by last_step AppdxOf.step childArms))
  have h1 : LastOpt (fun x => Text.fromChildren x.children) "RelatedArticleNum" e.children s.related_article_num :=
    lastOpt_of_rel (forElems_last (fun s => s.related_article_num) hs rfl (by last_step AppdxOf.step childArms))
  have h2 : LastOpt Remarks.parser "Remarks" e.children s.remarks :=
    lastOpt_of_rel (forElems_last (fun s => s.remarks) hs rfl (by last_step AppdxOf.step childArms))
  cases h
  exact ⟨h0, h1, h2⟩

theorem C60_appdxformat (n : Nat) (e : Element) (v : _) (h : AppdxFormat.parser (L := lvl n) e = .ok v) :
    LastOpt TextWithWritingMode.parser "AppdxFormatTitle" e.children v.title ∧
    LastOpt (fun x => Text.fromChildren x.children) "RelatedArticleNum"
      e.children v.related_article_num ∧
    LastOpt Remarks.parser "Remarks" e.children v.remarks := by
  unfold AppdxFormat.parser AppdxOf.parser at h
  have h := (ite_eq_ok h).2
  obtain ⟨_, -, h⟩ := Res.bind_eq_ok.1 h
  obtain ⟨s, hs, h⟩ := Res.bind_eq_ok.1 h
  have h0 : LastOpt TextWithWritingMode.parser "AppdxFormatTitle" e.children s.title :=
    lastOpt_of_rel (forElems_last (fun s => s.title) hs rfl (by last_step AppdxOf.step childArms))
  have h1 : LastOpt (fun x => Text.fromChildren x.children) "RelatedArticleNum" e.children s.related_article_num :=
    lastOpt_of_rel (forElems_last (fun s => s.related_article_num) hs rfl (by last_step AppdxOf.step childArms))
  have h2 : LastOpt Remarks.parser "Remarks" e.children s.remarks :=
    lastOpt_of_rel (forElems_last (fun s => s.remarks) hs rfl (by last_step AppdxOf.step childArms))
  cases h
  exact ⟨h0, h1, h2⟩

theorem C60_appdx (n : Nat) (e : Element) (v : _) (h : Appdx.parser (L := lvl n) e = .ok v) :
    LastOpt (fun x => Text.fromChildren x.children) "ArithFormulaNum"
      e.children v.arith_formula_num ∧
    LastOpt (fun x => Text.fromChildren x.children) "RelatedArticleNum"
      e.children v.related_article_num ∧
    LastOpt Remarks.parser "Remarks" e.children v.remarks := by
  unfold Appdx.parser at h
  have h := (ite_eq_ok h).2
  obtain ⟨s, hs, h⟩ := Res.bind_eq_ok.1 h
  have h0 : LastOpt (fun x => Text.fromChildren x.children) "ArithFormulaNum" e.children s.arith_formula_num :=
    lastOpt_of_rel (forElems_last (fun s => s.arith_formula_num) hs rfl (by last_step Appdx.step))
  have h1 : LastOpt (fun x => Text.fromChildren x.children) "RelatedArticleNum" e.children s.related_article_num :=
    lastOpt_of_rel (forElems_last (fun s => s.related_article_num) hs rfl (by last_step Appdx.step))
  have h2 : LastOpt Remarks.parser "Remarks" e.children s.remarks :=
    lastOpt_of_rel (forElems_last (fun s => s.remarks) hs rfl (by last_step Appdx.step))
  cases h
  exact ⟨h0, h1, h2⟩

theorem C60_appdxfig (n : Nat) (e : Element) (v : _) (h : AppdxFig.parser (L := lvl n) e = .ok v) :
    LastOpt TextWithWritingMode.parser "AppdxFigTitle" e.children v.title ∧
    LastOpt (fun x => Text.fromChildren x.children) "RelatedArticleNum"
      e.children v.related_article_num := by
  unfold AppdxFig.parser at h
  have h := (ite_eq_ok h).2
  obtain ⟨_, -, h⟩ := Res.bind_eq_ok.1 h
  obtain ⟨s, hs, h⟩ := Res.bind_eq_ok.1 h
  have h0 : LastOpt TextWithWritingMode.parser "AppdxFigTitle" e.children s.title :=
    lastOpt_of_rel (forElems_last (fun s => s.title) hs rfl (by last_step AppdxFig.step))
  have h1 : LastOpt (fun x => Text.fromChildren x.children) "RelatedArticleNum" e.children s.related_article_num :=
    lastOpt_of_rel (forElems_last (fun s => s.related_article_num) hs rfl (by last_step AppdxFig.step))
  cases h
  exact ⟨h0, h1⟩

theorem C60_supplprovisionappdxtable (n : Nat) (e : Element) (v : _) (h : SupplProvisionAppdxTable.parser (L := lvl n) e = .ok v) :
    LastReq TextWithWritingMode.parser "SupplProvisionAppdxTableTitle" e.children v.title ∧
    LastOpt (fun x => Text.fromChildren x.children) "RelatedArticleNum"
      e.children v.related_article_num := by
  unfold SupplProvisionAppdxTable.parser SupplAppdxOf.parser at h
  have h := (ite_eq_ok h).2
  obtain ⟨_, -, h⟩ := Res.bind_eq_ok.1 h
  obtain ⟨s, hs, h⟩ := Res.bind_eq_ok.1 h
  have h0 : LastOpt TextWithWritingMode.parser "SupplProvisionAppdxTableTitle" e.children s.title :=
    lastOpt_of_rel (forElems_last (fun s => s.title) hs rfl (by last_step SupplAppdxOf.step))
  have h1 : LastOpt (fun x => Text.fromChildren x.children) "RelatedArticleNum" e.children s.related_article_num :=
    lastOpt_of_rel (forElems_last (fun s => s.related_article_num) hs rfl (by last_step SupplAppdxOf.step))
  split at h
  case' h_2 => cases h
  next hb =>
  rw [hb] at h0
  cases h
  exact ⟨h0, h1⟩

theorem C60_supplprovisionappdxstyle (n : Nat) (e : Element) (v : _) (h : SupplProvisionAppdxStyle.parser (L := lvl n) e = .ok v) :
    LastReq TextWithWritingMode.parser "SupplProvisionAppdxStyleTitle" e.children v.title ∧
    LastOpt (fun x => Text.fromChildren x.children) "RelatedArticleNum"
      e.children v.related_article_num := by
  unfold SupplProvisionAppdxStyle.parser SupplAppdxOf.parser at h
  have h := (ite_eq_ok h).2
  obtain ⟨_, -, h⟩ := Res.bind_eq_ok.1 h
  obtain ⟨s, hs, h⟩ := Res.bind_eq_ok.1 h
  have h0 : LastOpt TextWithWritingMode.parser "SupplProvisionAppdxStyleTitle" e.children s.title :=
    lastOpt_of_rel (forElems_last (fun s => s.title) hs rfl (by last_step SupplAppdxOf.step))
  have h1 : LastOpt (fun x => Text.fromChildren x.children) "RelatedArticleNum" e.children s.related_article_num :=
    lastOpt_of_rel (forElems_last (fun s => s.related_article_num) hs rfl (by last_step SupplAppdxOf.step))
  split at h
  case' h_2 => cases h
  next hb =>
  rw [hb] at h0
  cases h
  exact ⟨h0, h1⟩

theorem C60_supplprovisionappdx (n : Nat) (e : Element) (v : _) (h : SupplProvisionAppdx.parser (L := lvl n) e = .ok v) :
    LastOpt (fun x => Text.fromChildren x.children) "ArithFormulaNum"
      e.children v.arith_formula_num ∧
    LastOpt (fun x => Text.fromChildren x.children) "RelatedArticleNum"
      e.children v.related_article_num := by
  unfold SupplProvisionAppdx.parser at h
  have h := (ite_eq_ok h).2
  obtain ⟨_, -, h⟩ := Res.bind_eq_ok.1 h
  obtain ⟨s, hs, h⟩ := Res.bind_eq_ok.1 h
  have h0 : LastOpt (fun x => Text.fromChildren x.children) "ArithFormulaNum" e.children s.arith_formula_num :=
    lastOpt_of_rel (forElems_last (fun s => s.arith_formula_num) hs rfl (by last_step SupplProvisionAppdx.step))
  have h1 : LastOpt (fun x => Text.fromChildren x.children) "RelatedArticleNum" e.children s.related_article_num :=
    lastOpt_of_rel (forElems_last (fun s => s.related_article_num) hs rfl (by last_step SupplProvisionAppdx.step))
  cases h
  exact ⟨h0, h1⟩

theorem C60_supplprovision (n : Nat) (e : Element) (v : _) (h : SupplProvision.parser (L := lvl n) e = .ok v) :
    LastOr Text.new (fun x => Text.fromChildren x.children) "SupplProvisionLabel"
      e.children v.label := by
  unfold SupplProvision.parser at h
  have h := (ite_eq_ok h).2
  obtain ⟨_, -, h⟩ := Res.bind_eq_ok.1 h
  obtain ⟨_, -, h⟩ := Res.bind_eq_ok.1 h
  obtain ⟨s, hs, h⟩ := Res.bind_eq_ok.1 h
  have h0 : LastOr Text.new (fun x => Text.fromChildren x.children) "SupplProvisionLabel" e.children s.label :=
    forElems_over (fun s => s.label) hs rfl (by last_step SupplProvision.step)
  cases h
  exact h0

theorem C60_lawbody (n : Nat) (e : Element) (v : _) (h : LawBody.parser (L := lvl n) e = .ok v) :
    LastOpt LawTitle.parser "LawTitle" e.children v.law_title ∧
    LastOpt TOC.parser "TOC" e.children v.toc ∧
    LastOpt Preamble.parser "Preamble" e.children v.preamble ∧
    LastReq MainProvision.parser "MainProvision" e.children v.main_provision := by
  unfold LawBody.parser at h
  have h := (ite_eq_ok h).2
  obtain ⟨_, -, h⟩ := Res.bind_eq_ok.1 h
  obtain ⟨s, hs, h⟩ := Res.bind_eq_ok.1 h
  have h0 : LastOpt LawTitle.parser "LawTitle" e.children s.law_title :=
    lastOpt_of_rel (forElems_last (fun s => s.law_title) hs rfl (by last_step LawBody.step))
  have h1 : LastOpt TOC.parser "TOC" e.children s.toc :=
    lastOpt_of_rel (forElems_last (fun s => s.toc) hs rfl (by last_step LawBody.step))
  have h2 : LastOpt Preamble.parser "Preamble" e.children s.preamble :=
    lastOpt_of_rel (forElems_last (fun s => s.preamble) hs rfl (by last_step LawBody.step))
  have h3 : LastOpt MainProvision.parser "MainProvision" e.children s.main_provision :=
    lastOpt_of_rel (forElems_last (fun s => s.main_provision) hs rfl (by last_step LawBody.step))
  split at h
  case' h_2 => cases h
  next hb =>
  rw [hb] at h3
  cases h
  exact ⟨h0, h1, h2, h3⟩

theorem C60_article (n : Nat) (e : Element) (v : _) (h : Article.parser (L := lvl n) e = .ok v) :
    LastOpt Caption.parser "ArticleCaption" e.children v.caption ∧
    LastOr Text.new (fun x => Text.fromChildren x.children) "ArticleTitle" e.children v.title ∧
    LastOpt (fun x => Text.fromChildren x.children) "SupplNote" e.children v.suppl_note := by
  have h := (ite_eq_ok h).2
  obtain ⟨_, -, h⟩ := Res.bind_eq_ok.1 h
  obtain ⟨_, -, h⟩ := Res.bind_eq_ok.1 h
  obtain ⟨_, -, h⟩ := Res.bind_eq_ok.1 h
  obtain ⟨hd, hh, h⟩ := Res.bind_eq_ok.1 h
  obtain ⟨s, hs, h⟩ := Res.bind_eq_ok.1 h
  cases h
  have h1 : named ["ArticleCaption"] hd.2.2 = [] := forElems_only (by
    intro s x s'
    simp only [Article.step]
    arms_cases
    · intro hx _; rw [hx]; decide
    · intro hx _; rw [hx]; decide
    · intro h; cases h) hs
  have h2 : named ["ArticleTitle"] hd.2.2 = [] := forElems_only (by
    intro s x s'
    simp only [Article.step]
    arms_cases
    · intro hx _; rw [hx]; decide
    · intro hx _; rw [hx]; decide
    · intro h; cases h) hs
  obtain ⟨i1, i2⟩ := articleHead_last hh h1 h2
  refine ⟨?_, i2, ?_⟩
  · rcases i1 with ⟨i1, i3⟩ | ⟨v, x, i1, i3, i4⟩
    · simp only [i3]; exact i1
    · simp only [i1]; exact ⟨x, i3, i4⟩
  · have h3 : LastOpt (fun x => Text.fromChildren x.children) "SupplNote" hd.2.2 s.suppl_note :=
      lastOpt_of_rel (forElems_last (fun s => s.suppl_note) hs rfl (by last_step Article.step))
    have h4 := articleHead_note hh
    unfold LastOpt at h3 ⊢
    rw [h4]
    exact h3

/-- Of two captions the second one counts. -/
example : LastOpt (Caption.parser (L := lvl 1)) "ParagraphCaption"
    [.element "ParagraphCaption" [] [.text "a"], .element "ParagraphCaption" [] [.text "b"]]
    (some ⟨⟨[.text "b"]⟩, none⟩) :=
  ⟨⟨"ParagraphCaption", [], [.text "b"]⟩, rfl, rfl⟩

end JLaw
