/-
Builds with a smaller `usize`: what the 64-bit build reads, and the builds with 64 bits.
-/
import Verif.Model.Narrow
import Verif.Lemmas.Good
import Verif.Lemmas.SameFiles

namespace OneNote.Narrow

variable {α β σ : Type} {w : Nat}

/-- On inputs with an address, `q` accepts what `p` accepts, with the same result. -/
def Agrees (w : Nat) (q p : P α) : Prop :=
  NonInc p ∧ ∀ s, s.length < 2 ^ w → ∀ a r, p s = .ok (a, r) → q s = .ok (a, r)

theorem Agrees.same {p : P α} (h : NonInc p) : Agrees w p p := ⟨h, fun _ _ _ _ h => h⟩

theorem Agrees.good {p : P α} (h : Good p) : Agrees w p p := .same h.nonInc

theorem Agrees.fail (e : Err) : Agrees w (P.fail e : P α) (P.fail e) :=
  ⟨fun _ _ _ h => (nomatch h), fun _ _ _ _ h => h⟩

theorem Agrees.pure (a : α) : Agrees w (pure a : P α) (Pure.pure a) := .good (Good.pure a)

theorem Agrees.bind {q p : P α} {g f : α → P β} (h : Agrees w q p) (hf : ∀ a, Agrees w (g a) (f a)) :
    Agrees w (q >>= g) (p >>= f) := by
  refine ⟨NonInc.bind h.1 fun a => (hf a).1, fun s hs b r hb => ?_⟩
  rw [P.bind_eq_ok] at hb ⊢
  obtain ⟨a, r', h1, h2⟩ := hb
  exact ⟨a, r', h.2 s hs a r' h1, (hf a).2 r' (Nat.lt_of_le_of_lt (h.1 _ _ _ h1) hs) _ _ h2⟩

theorem Agrees.ite {c : Prop} [Decidable c] {q p q' p' : P α} (h : Agrees w q p)
    (h' : Agrees w q' p') : Agrees w (if c then q else q') (if c then p else p') := by
  split
  · exact h
  · exact h'

theorem nonInc_peek : NonInc peekU8 := by
  intro s v r h
  cases s with
  | nil => cases h
  | cons b s => cases h; exact Nat.le_refl _

theorem nonInc_remaining : NonInc remaining := by
  intro s v r h
  cases h
  exact Nat.le_refl _

theorem Agrees.loop (ty : ObjectType) {g f : σ → P σ} (hf : ∀ a, Agrees w (g a) (f a)) (n : Nat)
    (a : σ) : Agrees w (loopUntilEnd8 ty g n a) (loopUntilEnd8 ty f n a) := by
  induction n generalizing a with
  | zero => exact .fail _
  | succ n ih =>
    unfold loopUntilEnd8 ObjectHeader.hasEnd8
    refine .bind (.bind (.same nonInc_peek) fun _ => .pure _) fun b => ?_
    cases b
    · exact .bind (hf a) fun a => ih a
    · exact .pure a

theorem Agrees.untilEnd8 (ty : ObjectType) {g f : σ → P σ} (hf : ∀ a, Agrees w (g a) (f a)) (a : σ) :
    Agrees w (untilEnd8 ty g a) (untilEnd8 ty f a) :=
  .bind (.same nonInc_remaining) fun _ => .bind (.loop ty hf _ _) fun _ =>
    .bind (.good (Good.tryParseEnd8 ty)) fun _ => .pure _

/-- A read that succeeds is of fewer than `2 ^ w` bytes. -/
theorem agrees_readN (n : Nat) : Agrees w (readN (toUsize w n)) (readN n) := by
  refine ⟨(Good.readN n).nonInc, fun s hs a r h => ?_⟩
  unfold readN at h
  split at h
  · cases h
  · next hn =>
    have : toUsize w n = n := Nat.mod_eq_of_lt (by omega)
    rw [this]
    unfold readN
    rw [if_neg hn]
    exact h

theorem agrees_binaryItem : Agrees w (binaryItem w) BinaryItem.parse :=
  .bind (.good Good.compact) fun n => agrees_readN n

theorem agrees_fragment : Agrees w (fragment w) Fragment.parse :=
  .bind (.good (Good.tryParse _)) fun _ => .bind (.good Good.exguid) fun _ =>
    .bind (.good Good.compact) fun _ => .bind (.good Good.compact) fun _ =>
    .bind (.good Good.compact) fun _ => .bind (agrees_readN _) fun _ => .pure _

theorem agrees_blob : Agrees w (objectDataBlob w) ObjectDataBlob.parse :=
  .bind (.good (Good.tryParse _)) fun _ => .bind agrees_binaryItem fun _ =>
    .bind (.good (Good.tryParseEnd8 _)) fun _ => .pure _

theorem agrees_dataItem (os : List GroupData) :
    Agrees w (dataItem w os) (ObjectGroup.parseDataItem os) := by
  refine .bind (.good Good.header) fun h => ?_
  rcases h with ⟨compound, type, length⟩
  cases type
  case objectGroupDataExcluded =>
    exact .bind (.good Good.exguidArray) fun _ => .bind (.good Good.cellIdArray) fun _ =>
      .bind (.good Good.compact) fun _ => .pure _
  case objectGroupDataObject =>
    exact .bind (.good Good.exguidArray) fun _ => .bind (.good Good.cellIdArray) fun _ =>
      .bind agrees_binaryItem fun _ => .pure _
  case objectGroupBlobReference =>
    exact .bind (.good Good.exguidArray) fun _ => .bind (.good Good.cellIdArray) fun _ =>
      .bind (.good Good.exguid) fun _ => .pure _
  all_goals exact .fail _

theorem agrees_objectGroup : Agrees w (objectGroup w) ObjectGroup.parse :=
  .bind (.good Good.declarations) fun _ => .bind (.good Good.metadataOpt) fun _ =>
    .bind (.untilEnd8 _ agrees_dataItem _) fun _ => .bind (.good (Good.tryParseEnd8 _)) fun _ => .pure _

theorem agrees_element (pkg : Package) : Agrees w (element w pkg) (Package.parseElement pkg) := by
  refine .bind (.good (Good.tryParse16 _)) fun _ => .bind (.good Good.exguid) fun _ =>
    .bind (.good Good.serial) fun _ => .bind (.good Good.compact) fun t => ?_
  split
  · exact .bind (.good Good.storageIndex) fun _ => .pure _
  · exact .bind (.good Good.storageManifest) fun _ => .pure _
  · exact .bind (.good Good.cellManifest) fun _ => .pure _
  · exact .bind (.good Good.revisionManifest) fun _ => .pure _
  · exact .bind agrees_objectGroup fun _ => .pure _
  · exact .bind agrees_fragment fun _ => .pure _
  · exact .bind agrees_blob fun _ => .pure _
  · split
    all_goals first | exact .fail _ | (exfalso; simp_all; done)

theorem agrees_package : Agrees w (package w) Package.parse :=
  .bind (.good (Good.tryParse16 _)) fun _ => .bind (.good (Good.getLE 1)) fun _ =>
    .ite (.fail _) (.untilEnd8 _ agrees_element _)

theorem agrees_legacy (a b c d : Guid) : Agrees w (legacy w a b c d) (Packaging.parseLegacy a b c d) :=
  .bind (.good (Good.getLE 4)) fun _ => .ite (.fail _) <|
    .bind (.good (Good.tryParse32 _)) fun _ => .bind (.good Good.exguid) fun _ =>
    .bind (.good Good.guid) fun _ => .bind agrees_package fun _ =>
    .bind (.good (Good.tryParseEnd16 _)) fun _ => .pure _

theorem agrees_seek (start : Nat) (log : Nat × Nat) :
    Agrees w (seekTransactionLog w start log) (Packaging.seekTransactionLog start log) := by
  refine .bind (.same nonInc_remaining) fun rem => .bind (.good (Good.fcrEnd log)) fun e => ?_
  refine .ite (.fail _) ⟨(Good.advance _).nonInc, fun s hs a r h => ?_⟩
  generalize e - (start - rem) = n at h ⊢
  unfold advance at h
  split at h
  · cases h
  · next hn =>
    have : toUsize w n = n := Nat.mod_eq_of_lt (by omega)
    rw [if_neg (by omega), this]
    unfold advance
    rw [if_neg hn]
    exact h

theorem agrees_parse : Agrees w (parse w) Packaging.parse :=
  .bind (.same nonInc_remaining) fun _ => .bind (.good Good.guid) fun _ =>
    .bind (.good Good.guid) fun _ => .bind (.good Good.guid) fun _ => .bind (.good Good.guid) fun _ =>
    .ite (agrees_legacy _ _ _ _) <| .ite (.fail _) <| .ite (agrees_legacy _ _ _ _) <|
    .bind (.good Good.storeHeader) fun _ => .bind (agrees_seek _ _) fun _ =>
    .bind (.good Good.guid) fun _ => .bind (.good Good.guid) fun _ => .bind (.good Good.guid) fun _ =>
    .bind (.good Good.guid) fun _ => agrees_legacy _ _ _ _

theorem agrees_store {ord : Order} {data : Bytes} {st : Store} (hd : data.length < 2 ^ w)
    (h : OneNote.readStore ord data = .ok st) : readStore w ord data = .ok st := by
  unfold OneNote.readStore at h
  obtain ⟨p, h1, h2⟩ := Res.bind_ok h
  unfold readStore
  unfold P.run at h1 ⊢
  cases hp : Packaging.parse data with
  | error e => rw [hp] at h1; cases h1
  | ok v =>
    obtain ⟨a, r⟩ := v
    rw [hp] at h1
    rw [agrees_parse.2 data hd a r hp]
    cases h1
    exact h2

/-! ### 64 bits -/

theorem compact_sixty_four {s r : Bytes} {n : Nat} (h : CompactU64.parse s = .ok (n, r)) :
    toUsize 64 n = n := by
  obtain ⟨bs, hc, -⟩ := compact_inv h
  exact Nat.mod_eq_of_lt (compact_lt hc)

theorem bind_congr {p : P α} {f g : α → P β} (h : ∀ s a r, p s = .ok (a, r) → f a = g a) :
    (p >>= f) = (p >>= g) := by
  funext s
  cases hp : p s with
  | error e => rw [P.bind_err hp, P.bind_err hp]
  | ok v =>
    obtain ⟨a, r⟩ := v
    rw [P.bind_ok hp, P.bind_ok hp, h s a r hp]

theorem binaryItem_sixty_four : binaryItem 64 = BinaryItem.parse :=
  bind_congr fun _ _ _ h => by rw [compact_sixty_four h]

theorem fragment_sixty_four : fragment 64 = Fragment.parse :=
  bind_congr fun _ _ _ _ => bind_congr fun _ _ _ _ => bind_congr fun _ _ _ h => by
    rw [compact_sixty_four h]

theorem blob_sixty_four : objectDataBlob 64 = ObjectDataBlob.parse := by
  unfold objectDataBlob ObjectDataBlob.parse
  rw [binaryItem_sixty_four]

theorem dataItem_sixty_four : dataItem 64 = ObjectGroup.parseDataItem := by
  funext os
  unfold dataItem ObjectGroup.parseDataItem
  rw [binaryItem_sixty_four]
  rfl

theorem objectGroup_sixty_four : objectGroup 64 = ObjectGroup.parse := by
  unfold objectGroup ObjectGroup.parse groupData ObjectGroup.parseData
  rw [dataItem_sixty_four]

theorem element_sixty_four : element 64 = Package.parseElement := by
  funext pkg
  unfold element Package.parseElement
  rw [objectGroup_sixty_four, fragment_sixty_four, blob_sixty_four]
  rfl

theorem package_sixty_four : package 64 = Package.parse := by
  unfold package Package.parse
  rw [element_sixty_four]

theorem legacy_sixty_four : legacy 64 = Packaging.parseLegacy := by
  unfold legacy Packaging.parseLegacy
  rw [package_sixty_four]

theorem seek_sixty_four (start : Nat) (log : Nat × Nat) :
    seekTransactionLog 64 start log = Packaging.seekTransactionLog start log := by
  refine bind_congr fun _ rem _ _ => bind_congr fun _ e _ h => ?_
  have he : e < 2 ^ 64 := by
    unfold Packaging.fcrEnd at h
    split at h
    · next hl =>
      cases h
      exact hl
    · cases h
  have : e - (start - rem) ≤ e := Nat.sub_le _ _
  generalize e - (start - rem) = n at *
  have hn : ¬ n > 2 ^ 64 - 1 := by omega
  have hm : toUsize 64 n = n := Nat.mod_eq_of_lt (by omega)
  rw [if_neg hn, hm]

theorem parse_sixty_four : parse 64 = Packaging.parse := by
  unfold parse Packaging.parse packaging Packaging.parsePackaging embedded Packaging.parseEmbedded
  rw [legacy_sixty_four]
  simp only [seek_sixty_four]

end OneNote.Narrow
