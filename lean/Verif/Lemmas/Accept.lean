/-
The container parsers accept nothing but what a (lax) writer may write.
-/
import Verif.Lemmas.Container
import Verif.Spec.Accepted

namespace OneNote

open Spec

variable {α σ : Type}

/-- Whatever `p` accepts is an encoding of its result, followed by the bytes left unread. -/
def Accepts (p : P α) (R : α → Bytes → Prop) : Prop :=
  ∀ s a r, p s = .ok (a, r) → ∃ bs, R a bs ∧ s = bs ++ r

theorem accepts_compact : Accepts CompactU64.parse Compact := fun _ _ _ h => compact_inv h
theorem accepts_exguid : Accepts ExGuid.parse ExGuidEnc := fun _ _ _ h => exGuid_inv h

theorem parse16_accepts {s r : Bytes} {h : ObjectHeader} (hp : ObjectHeader.parse16 s = .ok (h, r)) :
    ∃ bs, Start16 h.objectType bs ∧ s = bs ++ r := by
  obtain ⟨-, hl, rfl⟩ := ObjectHeader.parse16_inv hp
  exact ⟨_, .mk _ _ hl, rfl⟩

theorem parse32_accepts {s r : Bytes} {h : ObjectHeader} (hp : ObjectHeader.parse32 s = .ok (h, r)) :
    ∃ bs, Start32 h.objectType bs ∧ s = bs ++ r := by
  obtain ⟨bs, hl, rfl⟩ := ObjectHeader.parse32_inv hp
  exact ⟨_, .mk _ _ _ hl, rfl⟩

theorem parse_accepts {s r : Bytes} {h : ObjectHeader} (hp : ObjectHeader.parse s = .ok (h, r)) :
    ∃ bs, Start h.objectType bs ∧ s = bs ++ r := by
  rcases ObjectHeader.parse_inv hp with hp | hp
  · obtain ⟨ht, hl, rfl⟩ := ObjectHeader.parse16_inv hp
    exact ⟨_, .s16 _ ht (.mk _ _ hl), rfl⟩
  · obtain ⟨bs, hb, rfl⟩ := parse32_accepts hp
    exact ⟨_, .s32 _ hb, rfl⟩

theorem tryStart_accepts {p : P ObjectHeader} {ty : ObjectType} {s r : Bytes} {u : Unit}
    (h : ObjectHeader.tryParseStart ty p s = .ok (u, r)) :
    ∃ x, p s = .ok (x, r) ∧ x.objectType = ty := by
  unfold ObjectHeader.tryParseStart at h
  rw [P.bind_eq_ok] at h
  obtain ⟨x, r', hx, h⟩ := h
  split at h
  · rename_i ht
    cases h
    exact ⟨x, hx, ht⟩
  · cases h

theorem tryParse16_accepts {ty : ObjectType} {s r : Bytes} {u : Unit}
    (h : ObjectHeader.tryParse16 ty s = .ok (u, r)) : ∃ bs, Start16 ty bs ∧ s = bs ++ r := by
  obtain ⟨x, hx, rfl⟩ := tryStart_accepts h
  exact parse16_accepts hx

theorem tryParse32_accepts {ty : ObjectType} {s r : Bytes} {u : Unit}
    (h : ObjectHeader.tryParse32 ty s = .ok (u, r)) : ∃ bs, Start32 ty bs ∧ s = bs ++ r := by
  obtain ⟨x, hx, rfl⟩ := tryStart_accepts h
  exact parse32_accepts hx

theorem tryParse_accepts {ty : ObjectType} {s r : Bytes} {u : Unit}
    (h : ObjectHeader.tryParse ty s = .ok (u, r)) : ∃ bs, Start ty bs ∧ s = bs ++ r := by
  obtain ⟨x, hx, rfl⟩ := tryStart_accepts h
  exact parse_accepts hx

theorem tryEnd_accepts {p : P ObjectType} {ty : ObjectType} {s r : Bytes} {u : Unit}
    (h : ObjectHeader.tryParseEnd ty p s = .ok (u, r)) : p s = .ok (ty, r) := by
  unfold ObjectHeader.tryParseEnd at h
  rw [P.bind_eq_ok] at h
  obtain ⟨x, r', hx, h⟩ := h
  split at h
  · rename_i ht
    cases h
    rw [hx, ht]
  · cases h

theorem tryParseEnd8_accepts {ty : ObjectType} {s r : Bytes} {u : Unit}
    (h : ObjectHeader.tryParseEnd8 ty s = .ok (u, r)) :
    typeCode ty < 64 ∧ s = end8 (typeCode ty) ++ r :=
  ObjectHeader.parseEnd8_inv (tryEnd_accepts h)

theorem tryParseEnd16_accepts {ty : ObjectType} {s r : Bytes} {u : Unit}
    (h : ObjectHeader.tryParseEnd16 ty s = .ok (u, r)) : s = end16 (typeCode ty) ++ r :=
  ObjectHeader.parseEnd16_inv (tryEnd_accepts h)

theorem loopEnd_accepts {ty : ObjectType} {body : σ → P σ} {step : σ → α → σ}
    {R : α → Bytes → Prop}
    (hb : ∀ acc s acc' r, body acc s = .ok (acc', r) →
      ∃ a bs, R a bs ∧ s = bs ++ r ∧ acc' = step acc a)
    (n : Nat) (acc acc' : σ) (s r : Bytes) (h : loopEnd ty body n acc s = .ok (acc', r)) :
    typeCode ty < 64 ∧ ∃ as bs, ListEnc R as bs ∧ s = bs ++ (end8 (typeCode ty) ++ r) ∧
      acc' = as.foldl step acc := by
  induction n generalizing acc s with
  | zero => cases h
  | succ n ih =>
    unfold loopEnd at h
    rw [P.bind_eq_ok] at h
    obtain ⟨b, r', hp, h⟩ := h
    obtain ⟨rfl, -⟩ := peekU8_eq_ok hp
    split at h
    · rw [P.bind_eq_ok] at h
      obtain ⟨u, r1, he, h⟩ := h
      obtain ⟨ht, hs⟩ := tryParseEnd8_accepts he
      cases h
      exact ⟨ht, [], [], .nil, hs, rfl⟩
    · rw [P.bind_eq_ok] at h
      obtain ⟨acc1, r1, hb1, h⟩ := h
      obtain ⟨a, bs, ha, hs, rfl⟩ := hb _ _ _ _ hb1
      obtain ⟨ht, as, bs', has, hs', rfl⟩ := ih _ _ h
      refine ⟨ht, a :: as, bs ++ bs', .cons ha has, ?_, rfl⟩
      rw [hs, hs', List.append_assoc]

theorem untilEnd8_accepts {ty : ObjectType} {body : σ → P σ} {step : σ → α → σ}
    {R : α → Bytes → Prop}
    (hb : ∀ acc s acc' r, body acc s = .ok (acc', r) →
      ∃ a bs, R a bs ∧ s = bs ++ r ∧ acc' = step acc a)
    (acc acc' : σ) (s r : Bytes) (h : untilEnd8 ty body acc s = .ok (acc', r)) :
    typeCode ty < 64 ∧ ∃ as bs, ListEnc R as bs ∧ s = bs ++ (end8 (typeCode ty) ++ r) ∧
      acc' = as.foldl step acc := by
  rw [untilEnd8_eq] at h
  exact loopEnd_accepts hb _ _ _ _ _ h

theorem accepts_replicateP {p : P α} {R : α → Bytes → Prop} (hp : Accepts p R) (n : Nat)
    (s : Bytes) (as : List α) (r : Bytes) (h : replicateP p n s = .ok (as, r)) :
    as.length = n ∧ ∃ bs, ListEnc R as bs ∧ s = bs ++ r := by
  induction n generalizing s as with
  | zero => cases h; exact ⟨rfl, [], .nil, rfl⟩
  | succ n ih =>
    unfold replicateP at h
    rw [P.bind_eq_ok] at h
    obtain ⟨a, r1, ha, h⟩ := h
    rw [P.bind_eq_ok] at h
    obtain ⟨as', r2, has, h⟩ := h
    cases h
    obtain ⟨bs, hbs, rfl⟩ := hp _ _ _ ha
    obtain ⟨hl, bs', hbs', rfl⟩ := ih _ _ has
    exact ⟨by simp [hl], _, .cons hbs hbs', by rw [List.append_assoc]⟩

theorem accepts_cellId : Accepts CellId.parse CellIdEnc := by
  intro s c r h
  unfold CellId.parse at h
  rw [P.bind_eq_ok] at h
  obtain ⟨a, r1, ha, h⟩ := h
  rw [P.bind_eq_ok] at h
  obtain ⟨b, r2, hb, h⟩ := h
  cases h
  obtain ⟨x, hx, rfl⟩ := accepts_exguid _ _ _ ha
  obtain ⟨y, hy, rfl⟩ := accepts_exguid _ _ _ hb
  exact ⟨_, .mk _ _ _ _ hx hy, by rw [List.append_assoc]⟩

theorem accepts_array {p : P α} {R : α → Bytes → Prop} (hp : Accepts p R) :
    Accepts (CompactU64.parse >>= replicateP p) (ArrayEnc R) := by
  intro s as r h
  rw [P.bind_eq_ok] at h
  obtain ⟨n, r1, hn, h⟩ := h
  obtain ⟨c, hc, rfl⟩ := accepts_compact _ _ _ hn
  obtain ⟨rfl, bs, hbs, rfl⟩ := accepts_replicateP hp _ _ _ _ h
  exact ⟨_, .mk _ _ _ hc hbs, by rw [List.append_assoc]⟩

theorem accepts_exguidArray : Accepts ExGuid.parseArray (ArrayEnc ExGuidEnc) :=
  accepts_array accepts_exguid

theorem accepts_cellIdArray : Accepts CellId.parseArray (ArrayEnc CellIdEnc) :=
  accepts_array accepts_cellId

theorem accepts_binary : Accepts BinaryItem.parse BinaryEnc := by
  intro s d r h
  unfold BinaryItem.parse at h
  rw [P.bind_eq_ok] at h
  obtain ⟨n, r1, hn, h⟩ := h
  obtain ⟨c, hc, rfl⟩ := accepts_compact _ _ _ hn
  obtain ⟨rfl, rfl⟩ := readN_eq_ok.1 h
  exact ⟨_, .mk _ _ hc, by rw [List.append_assoc]⟩

theorem accepts_serial : Accepts SerialNumber.parse LaxSerial := by
  intro s x r h
  unfold SerialNumber.parse getU8 getU64 at h
  rw [P.bind_eq_ok] at h
  obtain ⟨t, r1, ht, h⟩ := h
  obtain ⟨HT, rfl⟩ := getLE_eq_ok.1 ht
  split at h
  · rename_i h0
    cases h
    subst h0
    exact ⟨_, .null, rfl⟩
  · rename_i h0
    rw [P.bind_eq_ok] at h
    obtain ⟨g, r2, hg, h⟩ := h
    rw [P.bind_eq_ok] at h
    obtain ⟨n, r3, hn, h⟩ := h
    cases h
    obtain ⟨HN, rfl⟩ := getLE_eq_ok.1 hn
    have := Guid.parse_inv hg
    subst this
    refine ⟨_, .value (UInt8.ofNat t) g n ?_ (by simpa using HN), ?_⟩
    · intro h
      have := congrArg UInt8.toNat h
      simp only [UInt8.toNat_ofNat', UInt8.toNat_ofNat] at this
      omega
    · simp [leBytes, Nat.mod_eq_of_lt (by simpa using HT : t < 256)]

theorem reads_laxSerial : Reads SerialNumber.parse LaxSerial := by
  intro s bs h r
  cases h with
  | null => exact reads_serial _ _ .null r
  | value t g n ht hn =>
    unfold SerialNumber.parse getU8 getU64
    have h1 : getLE 1 (t :: (guid g ++ leBytes 8 n) ++ r) =
        .ok (t.toNat, guid g ++ (leBytes 8 n ++ r)) := by
      simp [getLE, leNat]
    rw [P.bind_ok h1, if_neg (fun h : t.toNat = 0 => ht (UInt8.toNat_inj.1 h)), P.bind_ok (Guid.parse_guid _ _),
      P.bind_ok (getLE_leBytes_lt (by simpa using hn) r)]
    rfl

/-! ### Storage index -/

theorem accepts_indexItem (si : StorageIndex) (s : Bytes) (si' : StorageIndex) (r : Bytes)
    (h : StorageIndex.parseItem si s = .ok (si', r)) :
    ∃ a bs, LaxIndexItem a bs ∧ s = bs ++ r ∧ si' = si.step a := by
  unfold StorageIndex.parseItem at h
  rw [P.bind_eq_ok] at h
  obtain ⟨x, r1, hx, h⟩ := h
  obtain ⟨bh, hh, rfl⟩ := parse16_accepts hx
  generalize x.objectType = ty at h hh
  cases ty
  case storageIndexManifestMapping =>
    rw [P.bind_eq_ok] at h
    obtain ⟨i, r2, hi, h⟩ := h
    rw [P.bind_eq_ok] at h
    obtain ⟨n, r3, hn, h⟩ := h
    cases h
    obtain ⟨bi, HI, rfl⟩ := accepts_exguid _ _ _ hi
    obtain ⟨bn, HN, rfl⟩ := accepts_serial _ _ _ hn
    exact ⟨_, _, .manifest _ _ _ _ _ hh HI HN, by simp only [List.append_assoc], rfl⟩
  case storageIndexCellMapping =>
    rw [P.bind_eq_ok] at h
    obtain ⟨c, r4, hc, h⟩ := h
    rw [P.bind_eq_ok] at h
    obtain ⟨i, r2, hi, h⟩ := h
    rw [P.bind_eq_ok] at h
    obtain ⟨n, r3, hn, h⟩ := h
    cases h
    obtain ⟨bc, HC, rfl⟩ := accepts_cellId _ _ _ hc
    obtain ⟨bi, HI, rfl⟩ := accepts_exguid _ _ _ hi
    obtain ⟨bn, HN, rfl⟩ := accepts_serial _ _ _ hn
    exact ⟨_, _, .cell _ _ _ _ _ _ _ hh HC HI HN, by simp only [List.append_assoc], rfl⟩
  case storageIndexRevisionMapping =>
    rw [P.bind_eq_ok] at h
    obtain ⟨c, r4, hc, h⟩ := h
    rw [P.bind_eq_ok] at h
    obtain ⟨i, r2, hi, h⟩ := h
    rw [P.bind_eq_ok] at h
    obtain ⟨n, r3, hn, h⟩ := h
    cases h
    obtain ⟨bc, HC, rfl⟩ := accepts_exguid _ _ _ hc
    obtain ⟨bi, HI, rfl⟩ := accepts_exguid _ _ _ hi
    obtain ⟨bn, HN, rfl⟩ := accepts_serial _ _ _ hn
    exact ⟨_, _, .revision _ _ _ _ _ _ _ hh HC HI HN, by simp only [List.append_assoc], rfl⟩
  all_goals cases h

theorem laxIndexItem_low (a : IndexItem) (bs : Bytes) (h : LaxIndexItem a bs) : StartsLow bs := by
  cases h with
  | manifest _ _ _ _ _ hh => exact (startsLow16 hh).append _
  | cell _ _ _ _ _ _ _ hh => exact (startsLow16 hh).append _
  | revision _ _ _ _ _ _ _ hh => exact (startsLow16 hh).append _

theorem laxIndexItem_reads (si : StorageIndex) (a : IndexItem) (bs : Bytes) (h : LaxIndexItem a bs)
    (r : Bytes) : StorageIndex.parseItem si (bs ++ r) = .ok (si.step a, r) := by
  unfold StorageIndex.parseItem
  cases h with
  | manifest i s h bi bs hh hi hs =>
    simp only [List.append_assoc]
    obtain ⟨c, l, hp⟩ := parse16_start hh (by decide) (bi ++ (bs ++ r))
    rw [P.bind_ok hp]
    simp only
    rw [P.bind_ok (exGuid_enc hi _), P.bind_ok (reads_laxSerial _ _ hs _)]
    rfl
  | cell c i s h bc bi bs hh hc hi hs =>
    simp only [List.append_assoc]
    obtain ⟨_, l, hp⟩ := parse16_start hh (by decide) (bc ++ (bi ++ (bs ++ r)))
    rw [P.bind_ok hp]
    simp only
    rw [P.bind_ok (reads_cellId _ _ hc _), P.bind_ok (exGuid_enc hi _),
      P.bind_ok (reads_laxSerial _ _ hs _)]
    rfl
  | revision i m s h bi bm bs hh hi hm hs =>
    simp only [List.append_assoc]
    obtain ⟨_, l, hp⟩ := parse16_start hh (by decide) (bi ++ (bm ++ (bs ++ r)))
    rw [P.bind_ok hp]
    simp only
    rw [P.bind_ok (exGuid_enc hi _), P.bind_ok (exGuid_enc hm _),
      P.bind_ok (reads_laxSerial _ _ hs _)]
    rfl

theorem reads_laxIndex {items : List IndexItem} {bs : Bytes} (h : ListEnc LaxIndexItem items bs)
    (r : Bytes) :
    StorageIndex.parse (bs ++ (dataElementEnd ++ r)) = .ok (indexOf items, r) := by
  have := untilEnd8_reads (ty := .dataElement) (by decide) laxIndexItem_low laxIndexItem_reads h
    StorageIndex.empty r
  rw [foldl_index] at this
  exact this

theorem accepts_index {s r : Bytes} {si : StorageIndex} (h : StorageIndex.parse s = .ok (si, r)) :
    ∃ items bs, ListEnc LaxIndexItem items bs ∧ s = bs ++ (dataElementEnd ++ r) ∧
      si = indexOf items := by
  obtain ⟨-, items, bs, hi, hs, rfl⟩ := untilEnd8_accepts accepts_indexItem _ _ _ _ h
  exact ⟨items, bs, hi, hs, by rw [foldl_index]; rfl⟩

/-! ### The other elements -/

theorem accepts_rootItem (m : Map ExGuid CellId) (s : Bytes) (m' : Map ExGuid CellId) (r : Bytes)
    (h : StorageManifest.parseItem m s = .ok (m', r)) :
    ∃ a bs, RootEnc a bs ∧ s = bs ++ r ∧ m' = m.insert a.1 a.2 := by
  unfold StorageManifest.parseItem at h
  rw [P.bind_eq_ok] at h
  obtain ⟨u, r1, hh, h⟩ := h
  rw [P.bind_eq_ok] at h
  obtain ⟨i, r2, hi, h⟩ := h
  rw [P.bind_eq_ok] at h
  obtain ⟨c, r3, hc, h⟩ := h
  cases h
  obtain ⟨bh, HH, rfl⟩ := tryParse16_accepts hh
  obtain ⟨bi, HI, rfl⟩ := accepts_exguid _ _ _ hi
  obtain ⟨bc, HC, rfl⟩ := accepts_cellId _ _ _ hc
  exact ⟨(i, c), _, .mk _ _ _ _ _ HH HI HC, by simp only [List.append_assoc], rfl⟩

theorem accepts_manifest {s r : Bytes} {m : StorageManifest}
    (h : StorageManifest.parse s = .ok (m, r)) :
    ∃ id roots bs, BodyEnc (.storageManifest id roots) bs ∧ s = bs ++ r ∧
      m = ⟨id, Map.ofList roots⟩ := by
  unfold StorageManifest.parse at h
  rw [P.bind_eq_ok] at h
  obtain ⟨u, r1, hh, h⟩ := h
  rw [P.bind_eq_ok] at h
  obtain ⟨g, r2, hg, h⟩ := h
  rw [P.bind_eq_ok] at h
  obtain ⟨roots, r3, hr, h⟩ := h
  cases h
  obtain ⟨bh, HH, rfl⟩ := tryParse16_accepts hh
  have := Guid.parse_inv hg
  subst this
  obtain ⟨-, as, bs, ha, rfl, rfl⟩ := untilEnd8_accepts accepts_rootItem _ _ _ _ hr
  exact ⟨g, as, _, .storageManifest _ _ _ _ HH ha,
    by simp only [List.append_assoc, dataElementEnd], rfl⟩

theorem accepts_cellManifest {s r : Bytes} {id : ExGuid} (h : CellManifest.parse s = .ok (id, r)) :
    ∃ bs, BodyEnc (.cellManifest id) bs ∧ s = bs ++ r := by
  unfold CellManifest.parse at h
  rw [P.bind_eq_ok] at h
  obtain ⟨u, r1, hh, h⟩ := h
  rw [P.bind_eq_ok] at h
  obtain ⟨i, r2, hi, h⟩ := h
  rw [P.bind_eq_ok] at h
  obtain ⟨u', r3, he, h⟩ := h
  cases h
  obtain ⟨bh, HH, rfl⟩ := tryParse16_accepts hh
  obtain ⟨bi, HI, rfl⟩ := accepts_exguid _ _ _ hi
  obtain ⟨-, rfl⟩ := tryParseEnd8_accepts he
  exact ⟨_, .cellManifest _ _ _ HH HI, by simp only [List.append_assoc, dataElementEnd]⟩

theorem accepts_revisionItem (m : RevisionManifest) (s : Bytes) (m' : RevisionManifest) (r : Bytes)
    (h : RevisionManifest.parseItem m s = .ok (m', r)) :
    ∃ a bs, RevisionItemEnc a bs ∧ s = bs ++ r ∧ m' = m.step a := by
  unfold RevisionManifest.parseItem at h
  rw [P.bind_eq_ok] at h
  obtain ⟨x, r1, hx, h⟩ := h
  obtain ⟨bh, hh, rfl⟩ := parse16_accepts hx
  generalize x.objectType = ty at h hh
  cases ty
  case revisionManifestRoot =>
    rw [P.bind_eq_ok] at h
    obtain ⟨i, r2, hi, h⟩ := h
    rw [P.bind_eq_ok] at h
    obtain ⟨o, r3, ho, h⟩ := h
    cases h
    obtain ⟨bi, HI, rfl⟩ := accepts_exguid _ _ _ hi
    obtain ⟨bo, HO, rfl⟩ := accepts_exguid _ _ _ ho
    exact ⟨_, _, .root _ _ _ _ _ hh HI HO, by simp only [List.append_assoc], rfl⟩
  case revisionManifestGroupReference =>
    rw [P.bind_eq_ok] at h
    obtain ⟨i, r2, hi, h⟩ := h
    cases h
    obtain ⟨bi, HI, rfl⟩ := accepts_exguid _ _ _ hi
    exact ⟨_, _, .group _ _ _ hh HI, by simp only [List.append_assoc], rfl⟩
  all_goals cases h

theorem accepts_revisionManifest {s r : Bytes} {m : RevisionManifest}
    (h : RevisionManifest.parse s = .ok (m, r)) :
    ∃ x b items bs, BodyEnc (.revisionManifest x b items) bs ∧ s = bs ++ r ∧
      m = revisionOf x b items := by
  unfold RevisionManifest.parse at h
  rw [P.bind_eq_ok] at h
  obtain ⟨u, r1, hh, h⟩ := h
  rw [P.bind_eq_ok] at h
  obtain ⟨x, r2, hx, h⟩ := h
  rw [P.bind_eq_ok] at h
  obtain ⟨b, r3, hb, h⟩ := h
  obtain ⟨bh, HH, rfl⟩ := tryParse16_accepts hh
  obtain ⟨bx, HX, rfl⟩ := accepts_exguid _ _ _ hx
  obtain ⟨bb, HB, rfl⟩ := accepts_exguid _ _ _ hb
  obtain ⟨-, as, bs, ha, rfl, rfl⟩ := untilEnd8_accepts accepts_revisionItem _ _ _ _ h
  exact ⟨x, b, as, _, .revisionManifest _ _ _ _ _ _ _ HH HX HB ha,
    by simp only [List.append_assoc, dataElementEnd], by rw [foldl_revision]; rfl⟩

theorem accepts_declaration (ds : List Declaration) (s : Bytes) (ds' : List Declaration)
    (r : Bytes) (h : ObjectGroup.parseDeclaration ds s = .ok (ds', r)) :
    ∃ a bs, DeclarationEnc a bs ∧ s = bs ++ r ∧ ds' = ds ++ [a] := by
  unfold ObjectGroup.parseDeclaration at h
  rw [P.bind_eq_ok] at h
  obtain ⟨x, r1, hx, h⟩ := h
  obtain ⟨bh, hh, rfl⟩ := parse_accepts hx
  generalize x.objectType = ty at h hh
  cases ty
  case objectGroupObject =>
    rw [P.bind_eq_ok] at h
    obtain ⟨i, r2, hi, h⟩ := h
    rw [P.bind_eq_ok] at h
    obtain ⟨p, r3, hp, h⟩ := h
    rw [P.bind_eq_ok] at h
    obtain ⟨d, r4, hd, h⟩ := h
    rw [P.bind_eq_ok] at h
    obtain ⟨o, r5, ho, h⟩ := h
    rw [P.bind_eq_ok] at h
    obtain ⟨c, r6, hc, h⟩ := h
    cases h
    obtain ⟨bi, HI, rfl⟩ := accepts_exguid _ _ _ hi
    obtain ⟨bp, HP, rfl⟩ := accepts_compact _ _ _ hp
    obtain ⟨bd, HD, rfl⟩ := accepts_compact _ _ _ hd
    obtain ⟨bo, HO, rfl⟩ := accepts_compact _ _ _ ho
    obtain ⟨bc, HC, rfl⟩ := accepts_compact _ _ _ hc
    exact ⟨_, _, .object _ _ _ _ _ _ _ _ _ _ _ hh HI HP HD HO HC,
      by simp only [List.append_assoc], rfl⟩
  case objectGroupDataBlob =>
    rw [P.bind_eq_ok] at h
    obtain ⟨i, r2, hi, h⟩ := h
    rw [P.bind_eq_ok] at h
    obtain ⟨b, r3, hb, h⟩ := h
    rw [P.bind_eq_ok] at h
    obtain ⟨p, r4, hp, h⟩ := h
    rw [P.bind_eq_ok] at h
    obtain ⟨o, r5, ho, h⟩ := h
    rw [P.bind_eq_ok] at h
    obtain ⟨c, r6, hc, h⟩ := h
    cases h
    obtain ⟨bi, HI, rfl⟩ := accepts_exguid _ _ _ hi
    obtain ⟨bb, HB, rfl⟩ := accepts_exguid _ _ _ hb
    obtain ⟨bp, HP, rfl⟩ := accepts_compact _ _ _ hp
    obtain ⟨bo, HO, rfl⟩ := accepts_compact _ _ _ ho
    obtain ⟨bc, HC, rfl⟩ := accepts_compact _ _ _ hc
    exact ⟨_, _, .blob _ _ _ _ _ _ _ _ _ _ _ hh HI HB HP HO HC,
      by simp only [List.append_assoc], rfl⟩
  all_goals cases h

theorem accepts_groupData (os : List GroupData) (s : Bytes) (os' : List GroupData)
    (r : Bytes) (h : ObjectGroup.parseDataItem os s = .ok (os', r)) :
    ∃ a bs, GroupDataEnc a bs ∧ s = bs ++ r ∧ os' = os ++ [a] := by
  unfold ObjectGroup.parseDataItem at h
  rw [P.bind_eq_ok] at h
  obtain ⟨x, r1, hx, h⟩ := h
  obtain ⟨bh, hh, rfl⟩ := parse_accepts hx
  generalize x.objectType = ty at h hh
  cases ty
  case objectGroupDataExcluded =>
    rw [P.bind_eq_ok] at h
    obtain ⟨g, r2, hg, h⟩ := h
    rw [P.bind_eq_ok] at h
    obtain ⟨c, r3, hc, h⟩ := h
    rw [P.bind_eq_ok] at h
    obtain ⟨n, r4, hn, h⟩ := h
    cases h
    obtain ⟨bg, HG, rfl⟩ := accepts_exguidArray _ _ _ hg
    obtain ⟨bc, HC, rfl⟩ := accepts_cellIdArray _ _ _ hc
    obtain ⟨bn, HN, rfl⟩ := accepts_compact _ _ _ hn
    exact ⟨_, _, .excluded _ _ _ _ _ _ _ hh HG HC HN, by simp only [List.append_assoc], rfl⟩
  case objectGroupDataObject =>
    rw [P.bind_eq_ok] at h
    obtain ⟨g, r2, hg, h⟩ := h
    rw [P.bind_eq_ok] at h
    obtain ⟨c, r3, hc, h⟩ := h
    rw [P.bind_eq_ok] at h
    obtain ⟨n, r4, hn, h⟩ := h
    cases h
    obtain ⟨bg, HG, rfl⟩ := accepts_exguidArray _ _ _ hg
    obtain ⟨bc, HC, rfl⟩ := accepts_cellIdArray _ _ _ hc
    obtain ⟨bn, HN, rfl⟩ := accepts_binary _ _ _ hn
    exact ⟨_, _, .object _ _ _ _ _ _ _ hh HG HC HN, by simp only [List.append_assoc], rfl⟩
  case objectGroupBlobReference =>
    rw [P.bind_eq_ok] at h
    obtain ⟨g, r2, hg, h⟩ := h
    rw [P.bind_eq_ok] at h
    obtain ⟨c, r3, hc, h⟩ := h
    rw [P.bind_eq_ok] at h
    obtain ⟨n, r4, hn, h⟩ := h
    cases h
    obtain ⟨bg, HG, rfl⟩ := accepts_exguidArray _ _ _ hg
    obtain ⟨bc, HC, rfl⟩ := accepts_cellIdArray _ _ _ hc
    obtain ⟨bn, HN, rfl⟩ := accepts_exguid _ _ _ hn
    exact ⟨_, _, .blobReference _ _ _ _ _ _ _ hh HG HC HN, by simp only [List.append_assoc], rfl⟩
  all_goals cases h

/-- A metadata block is never accepted: its end header does not fit into the eight bits the code
looks for. -/
theorem metadataGroup_never {s r : Bytes} {ms : List ChangeFrequency}
    (h : ObjectGroup.parseMetadata s = .ok (ms, r)) : False := by
  have := (untilEnd8_accepts (R := fun (_ : List ChangeFrequency × Bytes) _ => True)
    (step := fun _ a => a.1)
    (fun acc s acc' r h => ⟨(acc', []), s.take (s.length - r.length), trivial, ?_, rfl⟩) _ _ _ _ h).1
  · exact absurd this (by decide)
  · obtain ⟨c, hc, -⟩ := (Good.metadataItem acc).pre _ _ _ h
    subst hc
    simp

theorem accepts_objectGroup {s r : Bytes} {g : ObjectGroup}
    (h : ObjectGroup.parse s = .ok (g, r)) :
    ∃ ds os bs, BodyEnc (.objectGroup ds os) bs ∧ s = bs ++ r ∧ g = ⟨ds, [], os⟩ := by
  unfold ObjectGroup.parse ObjectGroup.parseDeclarations ObjectGroup.parseMetadataOpt
    ObjectGroup.parseData at h
  rw [P.bind_assoc, P.bind_eq_ok] at h
  obtain ⟨u, r1, hh, h⟩ := h
  rw [P.bind_eq_ok] at h
  obtain ⟨ds, r2, hd, h⟩ := h
  rw [P.bind_eq_ok] at h
  obtain ⟨ms, r3, hm, h⟩ := h
  rw [P.bind_eq_ok] at h
  obtain ⟨os, r4, ho, h⟩ := h
  rw [P.bind_eq_ok] at h
  obtain ⟨u', r5, he, h⟩ := h
  cases h
  obtain ⟨bh, HH, rfl⟩ := tryParse_accepts hh
  obtain ⟨-, as, bs, ha, rfl, rfl⟩ := untilEnd8_accepts accepts_declaration _ _ _ _ hd
  obtain ⟨-, os', bo, HO, rfl, rfl⟩ := untilEnd8_accepts accepts_groupData _ _ _ _ ho
  obtain ⟨-, rfl⟩ := tryParseEnd8_accepts he
  rw [P.bind_eq_ok] at hm
  obtain ⟨x, r6, hx, hm⟩ := hm
  obtain ⟨bx, HX, rfl⟩ := parse_accepts hx
  generalize x.objectType = ty at hm HX
  cases ty
  case objectGroupMetadataBlock =>
    rw [P.bind_eq_ok] at hm
    obtain ⟨_, _, hm, -⟩ := hm
    exact (metadataGroup_never hm).elim
  case objectGroupData =>
    cases hm
    exact ⟨as, os', _, .objectGroup _ _ _ _ _ _ HH ha HX HO,
      by simp only [List.append_assoc, dataElementEnd], by rw [foldl_snoc, foldl_snoc]; rfl⟩
  all_goals cases hm

theorem accepts_blob {s r : Bytes} {d : Bytes} (h : ObjectDataBlob.parse s = .ok (d, r)) :
    ∃ bs, BodyEnc (.blob d) bs ∧ s = bs ++ r := by
  unfold ObjectDataBlob.parse at h
  rw [P.bind_eq_ok] at h
  obtain ⟨u, r1, hh, h⟩ := h
  rw [P.bind_eq_ok] at h
  obtain ⟨i, r2, hi, h⟩ := h
  rw [P.bind_eq_ok] at h
  obtain ⟨u', r3, he, h⟩ := h
  cases h
  obtain ⟨bh, HH, rfl⟩ := tryParse_accepts hh
  obtain ⟨bi, HI, rfl⟩ := accepts_binary _ _ _ hi
  obtain ⟨-, rfl⟩ := tryParseEnd8_accepts he
  exact ⟨_, .blob _ _ _ HH HI, by simp only [List.append_assoc, dataElementEnd]⟩

theorem accepts_fragment : Accepts Fragment.parse OpenFragment := by
  intro s f r h
  unfold Fragment.parse at h
  rw [P.bind_eq_ok] at h
  obtain ⟨u, r1, hh, h⟩ := h
  rw [P.bind_eq_ok] at h
  obtain ⟨i, r2, hi, h⟩ := h
  rw [P.bind_eq_ok] at h
  obtain ⟨n, r3, hn, h⟩ := h
  rw [P.bind_eq_ok] at h
  obtain ⟨o, r4, ho, h⟩ := h
  rw [P.bind_eq_ok] at h
  obtain ⟨l, r5, hl, h⟩ := h
  rw [P.bind_eq_ok] at h
  obtain ⟨d, r6, hd, h⟩ := h
  cases h
  obtain ⟨bh, HH, rfl⟩ := tryParse_accepts hh
  obtain ⟨bi, HI, rfl⟩ := accepts_exguid _ _ _ hi
  obtain ⟨bn, HN, rfl⟩ := accepts_compact _ _ _ hn
  obtain ⟨bo, HO, rfl⟩ := accepts_compact _ _ _ ho
  obtain ⟨bl, HL, rfl⟩ := accepts_compact _ _ _ hl
  obtain ⟨HD, rfl⟩ := readN_eq_ok.1 hd
  exact ⟨_, .mk _ _ _ _ _ _ _ _ _ _ HH HI HN HO HL HD, by simp only [List.append_assoc]⟩

theorem reads_fragment : Reads Fragment.parse OpenFragment := by
  intro f bs h r
  cases h with
  | mk i size offset length data h bi bs bo bl hh hi hs ho hl hd =>
    unfold Fragment.parse
    simp only [List.append_assoc]
    rw [P.bind_ok (tryParse_start hh _), P.bind_ok (exGuid_enc hi _), P.bind_ok (compact_enc hs _),
      P.bind_ok (compact_enc ho _), P.bind_ok (compact_enc hl _),
      P.bind_ok (readN_append' _ _ _ hd)]
    rfl

/-! ### Elements and package -/

def Package.laxStep (pkg : Package) (e : LaxElement) : Package :=
  match e.piece with
  | .body b => pkg.step ⟨e.id, b⟩
  | .fragment f => { pkg with fragments := pkg.fragments.insert e.id f }

theorem accepts_element (pkg : Package) (s : Bytes) (pkg' : Package) (r : Bytes)
    (h : Package.parseElement pkg s = .ok (pkg', r)) :
    ∃ e bs, LaxElementEnc e bs ∧ s = bs ++ r ∧ pkg' = pkg.laxStep e := by
  unfold Package.parseElement at h
  rw [P.bind_eq_ok] at h
  obtain ⟨u, r1, hh, h⟩ := h
  rw [P.bind_eq_ok] at h
  obtain ⟨i, r2, hi, h⟩ := h
  rw [P.bind_eq_ok] at h
  obtain ⟨n, r3, hn, h⟩ := h
  rw [P.bind_eq_ok] at h
  obtain ⟨t, r4, ht, h⟩ := h
  obtain ⟨bh, HH, rfl⟩ := tryParse16_accepts hh
  obtain ⟨bi, HI, rfl⟩ := accepts_exguid _ _ _ hi
  obtain ⟨bn, HN, rfl⟩ := accepts_serial _ _ _ hn
  obtain ⟨bt, HT, rfl⟩ := accepts_compact _ _ _ ht
  split at h
  · rw [P.bind_eq_ok] at h
    obtain ⟨x, r5, hx, h⟩ := h
    cases h
    obtain ⟨items, bs, hit, rfl, rfl⟩ := accepts_index hx
    exact ⟨⟨i, .body (.storageIndex items)⟩, _,
      .mk _ _ _ _ _ _ _ _ HH HI HN HT (.storageIndex _ _ hit),
      by simp only [List.append_assoc], rfl⟩
  · rw [P.bind_eq_ok] at h
    obtain ⟨x, r5, hx, h⟩ := h
    cases h
    obtain ⟨g, roots, bs, hb, rfl, rfl⟩ := accepts_manifest hx
    exact ⟨⟨i, .body (.storageManifest g roots)⟩, _,
      .mk _ _ _ _ _ _ _ _ HH HI HN HT (.legal _ _ hb), by simp only [List.append_assoc], rfl⟩
  · rw [P.bind_eq_ok] at h
    obtain ⟨x, r5, hx, h⟩ := h
    cases h
    obtain ⟨bs, hb, rfl⟩ := accepts_cellManifest hx
    exact ⟨⟨i, .body (.cellManifest x)⟩, _,
      .mk _ _ _ _ _ _ _ _ HH HI HN HT (.legal _ _ hb), by simp only [List.append_assoc], rfl⟩
  · rw [P.bind_eq_ok] at h
    obtain ⟨x, r5, hx, h⟩ := h
    cases h
    obtain ⟨y, b, items, bs, hb, rfl, rfl⟩ := accepts_revisionManifest hx
    exact ⟨⟨i, .body (.revisionManifest y b items)⟩, _,
      .mk _ _ _ _ _ _ _ _ HH HI HN HT (.legal _ _ hb), by simp only [List.append_assoc], rfl⟩
  · rw [P.bind_eq_ok] at h
    obtain ⟨x, r5, hx, h⟩ := h
    cases h
    obtain ⟨ds, os, bs, hb, rfl, rfl⟩ := accepts_objectGroup hx
    exact ⟨⟨i, .body (.objectGroup ds os)⟩, _,
      .mk _ _ _ _ _ _ _ _ HH HI HN HT (.legal _ _ hb), by simp only [List.append_assoc], rfl⟩
  · rw [P.bind_eq_ok] at h
    obtain ⟨x, r5, hx, h⟩ := h
    cases h
    obtain ⟨bs, hb, rfl⟩ := accepts_fragment _ _ _ hx
    exact ⟨⟨i, .fragment x⟩, _,
      .mk _ _ _ _ _ _ _ _ HH HI HN HT (.fragment _ _ hb), by simp only [List.append_assoc], rfl⟩
  · rw [P.bind_eq_ok] at h
    obtain ⟨x, r5, hx, h⟩ := h
    cases h
    obtain ⟨bs, hb, rfl⟩ := accepts_blob hx
    exact ⟨⟨i, .body (.blob x)⟩, _,
      .mk _ _ _ _ _ _ _ _ HH HI HN HT (.legal _ _ hb), by simp only [List.append_assoc], rfl⟩
  · cases h

theorem laxElement_low (e : LaxElement) (bs : Bytes) (h : LaxElementEnc e bs) : StartsLow bs := by
  cases h with
  | mk _ _ _ _ _ _ _ _ hh => exact (startsLow16 hh).append _

theorem laxElement_reads (pkg : Package) (e : LaxElement) (bs : Bytes) (h : LaxElementEnc e bs)
    (r : Bytes) : Package.parseElement pkg (bs ++ r) = .ok (pkg.laxStep e, r) := by
  cases h with
  | mk id piece serial h bi bs bt bb hh hi hs ht hb =>
    simp only [List.append_assoc]
    cases hb with
    | storageIndex items bs h =>
      unfold Package.parseElement
      rw [P.bind_ok (tryParse16_start hh (by decide) _), P.bind_ok (exGuid_enc hi _),
        P.bind_ok (reads_laxSerial _ _ hs _), P.bind_ok (compact_enc ht _)]
      simp only [contentsType, bodyType, List.append_assoc]
      rw [P.bind_ok (reads_laxIndex h r)]
      rfl
    | legal b bs hb =>
      have := element_reads pkg ⟨id, b⟩ _ (.mk id b ⟨Guid.nil, 0⟩ h bi [0] bt bb hh hi .null ht hb) r
      simp only [List.append_assoc] at this
      refine Eq.trans ?_ this
      unfold Package.parseElement
      rw [P.bind_ok (tryParse16_start hh (by decide) _), P.bind_ok (exGuid_enc hi _),
        P.bind_ok (reads_laxSerial _ _ hs _), P.bind_ok (tryParse16_start hh (by decide) _),
        P.bind_ok (exGuid_enc hi _), P.bind_ok (reads_serial _ _ .null _)]
    | fragment f bs h =>
      unfold Package.parseElement
      rw [P.bind_ok (tryParse16_start hh (by decide) _), P.bind_ok (exGuid_enc hi _),
        P.bind_ok (reads_laxSerial _ _ hs _), P.bind_ok (compact_enc ht _)]
      simp only [contentsType]
      rw [P.bind_ok (reads_fragment _ _ h r)]
      rfl

theorem foldl_laxPackage (es : List LaxElement) (pkg : Package) :
    es.foldl Package.laxStep pkg =
      { (wholeElements es).foldl Package.step pkg with
        fragments := pkg.fragments.extend (fragmentsOf es) } := by
  induction es generalizing pkg with
  | nil => rfl
  | cons e es ih =>
    rw [List.foldl_cons, ih]
    obtain ⟨id, p⟩ := e
    cases p with
    | body b =>
      simp only [wholeElements, fragmentsOf, List.filterMap_cons, List.foldl_cons]
      rw [foldl_package, foldl_package]
      cases b <;> rfl
    | fragment f =>
      simp only [wholeElements, fragmentsOf, List.filterMap_cons]
      rw [foldl_package, foldl_package]
      rfl

theorem laxPackage_fold (es : List LaxElement) :
    es.foldl Package.laxStep Package.empty = laxPackageOf es := by
  rw [foldl_laxPackage, foldl_package]
  rfl

theorem package_iff (s r : Bytes) (pkg : Package) :
    Package.parse s = .ok (pkg, r) ↔
      ∃ es bs, LaxPackage es bs ∧ s = bs ++ r ∧ pkg = laxPackageOf es := by
  constructor
  · intro h
    unfold Package.parse getU8 at h
    rw [P.bind_eq_ok] at h
    obtain ⟨u, r1, hh, h⟩ := h
    rw [P.bind_eq_ok] at h
    obtain ⟨p, r2, hp, h⟩ := h
    obtain ⟨bh, HH, rfl⟩ := tryParse16_accepts hh
    obtain ⟨-, rfl⟩ := getLE_eq_ok.1 hp
    split at h
    · cases h
    · rename_i h0
      obtain ⟨-, es, bs, he, rfl, rfl⟩ := untilEnd8_accepts accepts_element _ _ _ _ h
      have : p = 0 := by omega
      subst this
      refine ⟨es, _, .mk _ _ _ HH he, ?_, laxPackage_fold es⟩
      simp [leBytes]
  · rintro ⟨es, bs, h, rfl, rfl⟩
    cases h with
    | mk h bs hh he =>
      unfold Package.parse getU8
      have h1 : getLE 1 (0 :: (bs ++ (end8 (typeCode .dataElementPackage) ++ r))) =
          .ok (0, bs ++ (end8 (typeCode .dataElementPackage) ++ r)) := by
        simp [getLE, leNat]
      have h2 := untilEnd8_reads (ty := .dataElementPackage) (by decide) laxElement_low
        laxElement_reads he Package.empty r
      rw [laxPackage_fold] at h2
      simp only [List.append_assoc, List.cons_append]
      rw [P.bind_ok (tryParse16_start hh (by decide) _), P.bind_ok h1, if_neg (by decide)]
      exact h2

theorem legacy_iff (a b c d : Guid) (s r : Bytes) (p : Packaging) :
    Packaging.parseLegacy a b c d s = .ok (p, r) ↔
      ∃ si schema es bs, LaxTail si schema es bs ∧ s = bs ++ r ∧
        p = ⟨a, b, c, d, si, schema, laxPackageOf es⟩ := by
  constructor
  · intro h
    unfold Packaging.parseLegacy getU32 at h
    rw [P.bind_eq_ok] at h
    obtain ⟨n, r1, hn, h⟩ := h
    obtain ⟨-, rfl⟩ := getLE_eq_ok.1 hn
    split at h
    · cases h
    · rename_i h0
      have : n = 0 := by omega
      subst this
      rw [P.bind_eq_ok] at h
      obtain ⟨u, r2, hh, h⟩ := h
      rw [P.bind_eq_ok] at h
      obtain ⟨si, r3, hi, h⟩ := h
      rw [P.bind_eq_ok] at h
      obtain ⟨g, r4, hg, h⟩ := h
      rw [P.bind_eq_ok] at h
      obtain ⟨pkg, r5, hp, h⟩ := h
      rw [P.bind_eq_ok] at h
      obtain ⟨u', r6, he, h⟩ := h
      cases h
      obtain ⟨bh, HH, rfl⟩ := tryParse32_accepts hh
      obtain ⟨bi, HI, rfl⟩ := accepts_exguid _ _ _ hi
      have := Guid.parse_inv hg
      subst this
      obtain ⟨es, bp, HP, rfl, rfl⟩ := (package_iff _ _ _).1 hp
      have := tryParseEnd16_accepts he
      subst this
      exact ⟨si, g, es, _, .mk _ _ _ HH HI HP, by simp only [List.append_assoc], rfl⟩
  · rintro ⟨si, schema, es, bs, h, rfl, rfl⟩
    cases h with
    | mk h bi bp hh hi hp =>
      unfold Packaging.parseLegacy getU32
      simp only [List.append_assoc]
      rw [P.bind_ok (getLE_leBytes_lt (by decide) _), if_neg (by decide),
        P.bind_ok (tryParse32_start hh _), P.bind_ok (exGuid_enc hi _),
        P.bind_ok (Guid.parse_guid _ _), P.bind_ok ((package_iff _ _ _).2 ⟨_, _, hp, rfl, rfl⟩),
        P.bind_ok (tryParseEnd16_end r)]
      rfl

/-! ### Files -/

theorem version_accepts {s r : Bytes} {u : Unit} (h : Packaging.parseVersion s = .ok (u, r)) :
    ∃ v, KnownVersion v ∧ s = leBytes 4 v ++ r := by
  unfold Packaging.parseVersion getU32 at h
  rw [P.bind_eq_ok] at h
  obtain ⟨v, r1, hv, h⟩ := h
  obtain ⟨-, rfl⟩ := getLE_eq_ok.1 hv
  split at h
  · cases h
  · rename_i h0
    cases h
    exact ⟨v, by unfold KnownVersion; omega, rfl⟩

theorem storeHeader_accepts {s r : Bytes} {log : Nat × Nat}
    (h : Packaging.parseStoreHeader s = .ok (log, r)) :
    ∃ f : StoreFields, KnownVersion f.lastWriterVersion ∧ KnownVersion f.oldestWriterVersion ∧
      KnownVersion f.newestWriterVersion ∧ KnownVersion f.oldestReaderVersion ∧
      f.logStart < 2 ^ 64 ∧ f.logLength < 2 ^ 32 ∧ s = storeFields f ++ r ∧
      log = (f.logStart, f.logLength) := by
  unfold Packaging.parseStoreHeader Packaging.parseFcr64x32 getU64 getU32 getU8 at h
  simp only [P.bind_assoc, P.pure_bind] at h
  rw [P.bind_eq_ok] at h; obtain ⟨_, _, h1, h⟩ := h
  rw [P.bind_eq_ok] at h; obtain ⟨_, _, h2, h⟩ := h
  rw [P.bind_eq_ok] at h; obtain ⟨_, _, h3, h⟩ := h
  rw [P.bind_eq_ok] at h; obtain ⟨_, _, h4, h⟩ := h
  rw [P.bind_eq_ok] at h; obtain ⟨x5, _, h5, h⟩ := h
  rw [P.bind_eq_ok] at h; obtain ⟨x6, _, h6, h⟩ := h
  rw [P.bind_eq_ok] at h; obtain ⟨x7, _, h7, h⟩ := h
  rw [P.bind_eq_ok] at h; obtain ⟨x8, _, h8, h⟩ := h
  rw [P.bind_eq_ok] at h; obtain ⟨x9, _, h9, h⟩ := h
  rw [P.bind_eq_ok] at h; obtain ⟨x10, _, h10, h⟩ := h
  rw [P.bind_eq_ok] at h; obtain ⟨x11, _, h11, h⟩ := h
  rw [P.bind_eq_ok] at h; obtain ⟨x12, _, h12, h⟩ := h
  rw [P.bind_eq_ok] at h; obtain ⟨x13, _, h13, h⟩ := h
  rw [P.bind_eq_ok] at h; obtain ⟨x14, _, h14, h⟩ := h
  rw [P.bind_eq_ok] at h; obtain ⟨x15, _, h15, h⟩ := h
  rw [P.bind_eq_ok] at h; obtain ⟨x16, _, h16, h⟩ := h
  rw [P.bind_eq_ok] at h; obtain ⟨x17, _, h17, h⟩ := h
  rw [P.bind_eq_ok] at h; obtain ⟨x18, _, h18, h⟩ := h
  rw [P.bind_eq_ok] at h; obtain ⟨x19, _, h19, h⟩ := h
  rw [P.bind_eq_ok] at h; obtain ⟨start, _, h20, h⟩ := h
  rw [P.bind_eq_ok] at h; obtain ⟨len, _, h21, h⟩ := h
  cases h
  obtain ⟨H20, e20⟩ := getLE_eq_ok.1 h20
  obtain ⟨H21, e21⟩ := getLE_eq_ok.1 h21
  obtain ⟨v1, k1, e1⟩ := version_accepts h1
  obtain ⟨v2, k2, e2⟩ := version_accepts h2
  obtain ⟨v3, k3, e3⟩ := version_accepts h3
  obtain ⟨v4, k4, e4⟩ := version_accepts h4
  refine ⟨⟨v1, v2, v3, v4, x5, x6, x7, x8, x9, x10, x11, x12, x13, x14, x15, x16, x17,
    x18, x19, start, len⟩, k1, k2, k3, k4,
    by simpa using H20, by simpa using H21, ?_, rfl⟩
  unfold storeFields
  simp only [List.append_assoc]
  rw [e1, e2, e3, e4, (getLE_eq_ok.1 h5).2, (getLE_eq_ok.1 h6).2, (getLE_eq_ok.1 h7).2,
    (getLE_eq_ok.1 h8).2, (getLE_eq_ok.1 h9).2, (getLE_eq_ok.1 h10).2, (getLE_eq_ok.1 h11).2,
    (getLE_eq_ok.1 h12).2, (getLE_eq_ok.1 h13).2, (getLE_eq_ok.1 h14).2, (getLE_eq_ok.1 h15).2,
    Guid.parse_inv h16, (getLE_eq_ok.1 h17).2, (getLE_eq_ok.1 h18).2, (getLE_eq_ok.1 h19).2,
    e20, e21]

theorem seek_accepts {log : Nat × Nat} {s r : Bytes} {u : Unit}
    (h : seekFrom 172 log s = .ok (u, r)) :
    log.1 + log.2 < 2 ^ 64 ∧ ∃ skipped, s = skipped ++ r ∧ 172 + skipped.length = log.1 + log.2 := by
  unfold seekFrom at h
  rw [P.bind_eq_ok] at h
  obtain ⟨e, s', he, h⟩ := h
  unfold Packaging.fcrEnd at he
  split at he
  · rename_i hlt
    cases he
    split at h
    · cases h
    · rename_i hge
      unfold advance at h
      split at h
      · cases h
      · rename_i hlen
        obtain ⟨-, rfl⟩ : _ ∧ _ := by simpa only [Except.ok.injEq, Prod.mk.injEq] using h
        refine ⟨hlt, s.take (log.1 + log.2 - 172), (List.take_append_drop _ _).symm, ?_⟩
        rw [List.length_take]
        omega
  · cases he

theorem embeddedContainer_iff (s r : Bytes) (p : Packaging) :
    Packaging.parseEmbedded s = .ok (p, r) ↔
      ∃ a b c d si schema es bs, LaxContainer a b c d si schema es bs ∧ s = bs ++ r ∧
        p = ⟨a, b, c, d, si, schema, laxPackageOf es⟩ := by
  unfold Packaging.parseEmbedded
  constructor
  · intro h
    rw [P.bind_eq_ok] at h; obtain ⟨a, _, h1, h⟩ := h
    rw [P.bind_eq_ok] at h; obtain ⟨b, _, h2, h⟩ := h
    rw [P.bind_eq_ok] at h; obtain ⟨c, _, h3, h⟩ := h
    rw [P.bind_eq_ok] at h; obtain ⟨d, _, h4, h⟩ := h
    obtain ⟨si, schema, es, bs, ht, hs, rfl⟩ := (legacy_iff _ _ _ _ _ _ _).1 h
    refine ⟨a, b, c, d, si, schema, es, _, .mk bs ht, ?_, rfl⟩
    rw [Guid.parse_inv h1, Guid.parse_inv h2, Guid.parse_inv h3, Guid.parse_inv h4, hs]
    simp only [List.append_assoc]
  · rintro ⟨a, b, c, d, si, schema, es, bs, h, rfl, rfl⟩
    cases h with
    | mk bs h =>
      simp only [List.append_assoc]
      rw [P.bind_ok (Guid.parse_guid _ _), P.bind_ok (Guid.parse_guid _ _),
        P.bind_ok (Guid.parse_guid _ _), P.bind_ok (Guid.parse_guid _ _)]
      exact (legacy_iff _ _ _ _ _ _ _).2 ⟨si, schema, es, bs, h, rfl, rfl⟩

theorem file_accepts {s r : Bytes} {p : Packaging} (h : Packaging.parse s = .ok (p, r)) :
    ∃ a b c d si schema es bs, LaxFile a b c d si schema es bs ∧ s = bs ++ r ∧
      p = ⟨a, b, c, d, si, schema, laxPackageOf es⟩ := by
  rw [parse_eq_const] at h
  unfold parseConst at h
  rw [P.bind_eq_ok] at h; obtain ⟨a, _, h1, h⟩ := h
  rw [P.bind_eq_ok] at h; obtain ⟨b, _, h2, h⟩ := h
  rw [P.bind_eq_ok] at h; obtain ⟨c, _, h3, h⟩ := h
  rw [P.bind_eq_ok] at h; obtain ⟨d, _, h4, h⟩ := h
  have hs := Guid.parse_inv h1
  rw [Guid.parse_inv h2, Guid.parse_inv h3, Guid.parse_inv h4] at hs
  split at h
  · rename_i hd
    obtain ⟨si, schema, es, bs, ht, rfl, rfl⟩ := (legacy_iff _ _ _ _ _ _ _).1 h
    exact ⟨a, b, c, d, si, schema, es, _, .packageStore _ hd (.mk bs ht),
      by rw [hs]; simp only [List.append_assoc], rfl⟩
  · split at h
    · cases h
    · rename_i hd
      have hd : d = Packaging.revisionStoreFormat := by simpa using hd
      split at h
      · rename_i hc
        obtain ⟨si, schema, es, bs, ht, rfl, rfl⟩ := (legacy_iff _ _ _ _ _ _ _).1 h
        exact ⟨a, b, c, d, si, schema, es, _,
          .legacy _ hd (by simpa [Guid.isNil] using hc) (.mk bs ht),
          by rw [hs]; simp only [List.append_assoc], rfl⟩
      · rename_i hc
        have hc : c = Guid.nil := by simpa [Guid.isNil] using hc
        rw [P.bind_eq_ok] at h
        obtain ⟨log, _, hl, h⟩ := h
        rw [P.bind_eq_ok] at h
        obtain ⟨u, _, hk, h⟩ := h
        obtain ⟨f, k1, k2, k3, k4, b1, b2, rfl, rfl⟩ := storeHeader_accepts hl
        obtain ⟨hp, skipped, rfl, hlen⟩ := seek_accepts hk
        obtain ⟨a', b', c', d', si, schema, es, bs, ht, rfl, rfl⟩ := (embeddedContainer_iff _ _ _).1 h
        refine ⟨a', b', c', d', si, schema, es, _,
          .embedded a b f skipped bs k1 k2 k3 k4 b1 b2 hp hlen ht, ?_, rfl⟩
        rw [hs, hd, hc]
        unfold revisionStoreHead
        simp only [List.append_assoc]
        rfl

end OneNote
