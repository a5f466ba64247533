/-
The container parsers read back what a writer wrote.
-/
import Verif.Lemmas.Good
import Verif.Lemmas.Map

namespace OneNote

open Spec

variable {α σ : Type}

/-- `p` reads back every encoding of a value. -/
def Reads (p : P α) (R : α → Bytes → Prop) : Prop :=
  ∀ a bs, R a bs → ∀ r, p (bs ++ r) = .ok (a, r)

theorem reads_compact : Reads CompactU64.parse Compact := fun _ _ h r => compact_enc h r
theorem reads_exguid : Reads ExGuid.parse ExGuidEnc := fun _ _ h r => exGuid_enc h r

theorem parse16_start {ty : ObjectType} {bs : Bytes} (h : Start16 ty bs) (ht : typeCode ty < 2 ^ 6)
    (r : Bytes) : ∃ c l, ObjectHeader.parse16 (bs ++ r) = .ok (⟨c, ty, l⟩, r) := by
  cases h with
  | mk c l hl => exact ⟨c, l, ObjectHeader.parse16_enc c ty l ht hl r⟩

theorem parse32_start {ty : ObjectType} {bs : Bytes} (h : Start32 ty bs)
    (r : Bytes) : ∃ c l, ObjectHeader.parse32 (bs ++ r) = .ok (⟨c, ty, l⟩, r) := by
  cases h with
  | mk c l _ hl => exact ⟨c, l, ObjectHeader.parse32_enc c ty l bs hl r⟩

theorem parse_start {ty : ObjectType} {bs : Bytes} (h : Start ty bs)
    (r : Bytes) : ∃ c l, ObjectHeader.parse (bs ++ r) = .ok (⟨c, ty, l⟩, r) := by
  cases h with
  | s16 ht h =>
    cases h with
    | mk c l hl => exact ⟨c, l, ObjectHeader.parse_enc16 c ty l ht hl r⟩
  | s32 h =>
    cases h with
    | mk c l _ hl => exact ⟨c, l, ObjectHeader.parse_enc32 c ty l bs hl r⟩

theorem tryParse16_start {ty : ObjectType} {bs : Bytes} (h : Start16 ty bs)
    (ht : typeCode ty < 2 ^ 6) (r : Bytes) : ObjectHeader.tryParse16 ty (bs ++ r) = .ok ((), r) := by
  obtain ⟨c, l, hp⟩ := parse16_start h ht r
  unfold ObjectHeader.tryParse16 ObjectHeader.tryParseStart
  rw [P.bind_ok hp]; simp [P.pure_apply]

theorem tryParse32_start {ty : ObjectType} {bs : Bytes} (h : Start32 ty bs) (r : Bytes) :
    ObjectHeader.tryParse32 ty (bs ++ r) = .ok ((), r) := by
  obtain ⟨c, l, hp⟩ := parse32_start h r
  unfold ObjectHeader.tryParse32 ObjectHeader.tryParseStart
  rw [P.bind_ok hp]; simp [P.pure_apply]

theorem tryParse_start {ty : ObjectType} {bs : Bytes} (h : Start ty bs) (r : Bytes) :
    ObjectHeader.tryParse ty (bs ++ r) = .ok ((), r) := by
  obtain ⟨c, l, hp⟩ := parse_start h r
  unfold ObjectHeader.tryParse ObjectHeader.tryParseStart
  rw [P.bind_ok hp]; simp [P.pure_apply]

theorem tryParseEnd8_end {ty : ObjectType} (ht : typeCode ty < 64) (r : Bytes) :
    ObjectHeader.tryParseEnd8 ty (end8 (typeCode ty) ++ r) = .ok ((), r) := by
  unfold ObjectHeader.tryParseEnd8 ObjectHeader.tryParseEnd
  rw [P.bind_ok (ObjectHeader.parseEnd8_enc ty ht r)]; simp [P.pure_apply]

theorem tryParseEnd16_end {ty : ObjectType} (r : Bytes) :
    ObjectHeader.tryParseEnd16 ty (end16 (typeCode ty) ++ r) = .ok ((), r) := by
  unfold ObjectHeader.tryParseEnd16 ObjectHeader.tryParseEnd
  rw [P.bind_ok (ObjectHeader.parseEnd16_enc ty r)]; simp [P.pure_apply]

/-- The first byte is the start of a start header, not of an end header. -/
def StartsLow (bs : Bytes) : Prop := ∃ x t, bs = x :: t ∧ x.toNat % 4 ≠ 1

theorem StartsLow.append {bs : Bytes} (h : StartsLow bs) (r : Bytes) : StartsLow (bs ++ r) := by
  obtain ⟨x, t, rfl, hx⟩ := h
  exact ⟨x, t ++ r, rfl, hx⟩

theorem startsLow_leBytes (n v : Nat) (h : v % 4 ≠ 1) : StartsLow (leBytes (n + 1) v) := by
  refine ⟨_, _, rfl, ?_⟩
  simp only [UInt8.toNat_ofNat']
  omega

theorem startsLow16 {ty : ObjectType} {bs : Bytes} (h : Start16 ty bs) : StartsLow bs := by
  cases h with
  | mk c l hl => exact startsLow_leBytes _ _ (by omega)

theorem startsLow32 {ty : ObjectType} {bs : Bytes} (h : Start32 ty bs) : StartsLow bs := by
  cases h with
  | mk c l _ h =>
    cases h with
    | short hl => exact startsLow_leBytes _ _ (by omega)
    | long _ hc => exact (startsLow_leBytes _ _ (by omega)).append _

theorem startsLow {ty : ObjectType} {bs : Bytes} (h : Start ty bs) : StartsLow bs := by
  cases h with
  | s16 _ h => exact startsLow16 h
  | s32 h => exact startsLow32 h

theorem loopEnd_reads {ty : ObjectType} (ht : typeCode ty < 64) {body : σ → P σ} {step : σ → α → σ}
    {R : α → Bytes → Prop} (hR : ∀ a bs, R a bs → StartsLow bs)
    (hb : ∀ acc a bs, R a bs → ∀ r, body acc (bs ++ r) = .ok (step acc a, r))
    (as : List α) (bs : Bytes) (h : ListEnc R as bs) (acc : σ) (r : Bytes) (n : Nat)
    (hn : bs.length < n) :
    loopEnd ty body n acc (bs ++ (end8 (typeCode ty) ++ r)) = .ok (as.foldl step acc, r) := by
  induction h generalizing acc n with
  | nil =>
    cases n with
    | zero => simp at hn
    | succ n =>
      unfold loopEnd
      have : end8 (typeCode ty) ++ r = leBytes (0 + 1) (1 + 4 * typeCode ty) ++ r := rfl
      rw [List.nil_append, this, P.bind_ok (peekU8_leBytes _ _ _), ← this]
      have h1 : (1 + 4 * typeCode ty) % 256 = 1 + 4 * typeCode ty := by omega
      rw [h1, and_3, shr_eq, code_eq, if_pos (by simp; omega), P.bind_ok (tryParseEnd8_end ht r)]
      rfl
  | cons ha hl ih =>
    rename_i a b as bs
    cases n with
    | zero => simp at hn
    | succ n =>
      unfold loopEnd
      obtain ⟨x, t, rfl, hx⟩ := hR _ _ ha
      rw [List.append_assoc, List.cons_append, P.bind_ok (peekU8_cons _ _), ← List.cons_append,
        and_3, if_neg (by simp; intro h; omega), P.bind_ok (hb _ _ _ ha _)]
      simp only [List.cons_append, List.length_cons, List.length_append] at hn
      exact ih _ _ (by omega)

theorem untilEnd8_reads {ty : ObjectType} (ht : typeCode ty < 64) {body : σ → P σ}
    {step : σ → α → σ}
    {R : α → Bytes → Prop} (hR : ∀ a bs, R a bs → StartsLow bs)
    (hb : ∀ acc a bs, R a bs → ∀ r, body acc (bs ++ r) = .ok (step acc a, r))
    {as : List α} {bs : Bytes} (h : ListEnc R as bs) (acc : σ) (r : Bytes) :
    untilEnd8 ty body acc (bs ++ (end8 (typeCode ty) ++ r)) = .ok (as.foldl step acc, r) := by
  rw [untilEnd8_eq]
  exact loopEnd_reads ht hR hb as bs h acc r _ (by simp; omega)

theorem reads_replicateP {p : P α} {R : α → Bytes → Prop} (hp : Reads p R) {as : List α}
    {bs : Bytes} (h : ListEnc R as bs) (r : Bytes) :
    replicateP p as.length (bs ++ r) = .ok (as, r) := by
  induction h with
  | nil => rfl
  | cons ha hl ih =>
    simp only [List.length_cons, replicateP]
    rw [List.append_assoc, P.bind_ok (hp _ _ ha _), P.bind_ok ih]
    rfl

theorem reads_serial : Reads SerialNumber.parse SerialEnc := by
  intro s bs h r
  unfold SerialNumber.parse getU8 getU64
  cases h with
  | null => simp [P.bind_apply, getLE, leNat, P.pure_apply]
  | value g n hn =>
    have h1 : getLE 1 (0x80 :: (guid g ++ leBytes 8 n) ++ r) =
        .ok (128, guid g ++ (leBytes 8 n ++ r)) := by
      simp [getLE, leNat]
    rw [P.bind_ok h1, if_neg (by decide), P.bind_ok (Guid.parse_guid _ _),
      P.bind_ok (getLE_leBytes_lt (by simpa using hn) r)]
    rfl

theorem reads_cellId : Reads CellId.parse CellIdEnc := by
  intro c bs h r
  cases h with
  | mk a b x y hx hy =>
    unfold CellId.parse
    rw [List.append_assoc, P.bind_ok (exGuid_enc hx _), P.bind_ok (exGuid_enc hy _)]
    rfl

theorem reads_exguidArray : Reads ExGuid.parseArray (ArrayEnc ExGuidEnc) := by
  intro c bs h r
  cases h with
  | mk c bs hc h =>
    unfold ExGuid.parseArray
    rw [List.append_assoc, P.bind_ok (compact_enc hc _)]
    exact reads_replicateP reads_exguid h r

theorem reads_cellIdArray : Reads CellId.parseArray (ArrayEnc CellIdEnc) := by
  intro c bs h r
  cases h with
  | mk c bs hc h =>
    unfold CellId.parseArray
    rw [List.append_assoc, P.bind_ok (compact_enc hc _)]
    exact reads_replicateP reads_cellId h r

theorem reads_binary : Reads BinaryItem.parse BinaryEnc := by
  intro c bs h r
  cases h with
  | mk c hc =>
    unfold BinaryItem.parse
    rw [List.append_assoc, P.bind_ok (compact_enc hc _)]
    exact readN_append _ _

/-! ### Storage index -/

def StorageIndex.step (si : StorageIndex) : IndexItem → StorageIndex
  | .manifest i s => { si with manifestMappings := si.manifestMappings ++ [⟨i, s⟩] }
  | .cell c i s => { si with cellMappings := si.cellMappings.insert c ⟨c, i, s⟩ }
  | .revision i m s => { si with revisionMappings := si.revisionMappings.insert i ⟨m, s⟩ }

theorem indexItem_low (a : IndexItem) (bs : Bytes) (h : IndexItemEnc a bs) : StartsLow bs := by
  cases h with
  | manifest _ _ _ _ _ hh => exact (startsLow16 hh).append _
  | cell _ _ _ _ _ _ _ hh => exact (startsLow16 hh).append _
  | revision _ _ _ _ _ _ _ hh => exact (startsLow16 hh).append _

theorem indexItem_reads (si : StorageIndex) (a : IndexItem) (bs : Bytes) (h : IndexItemEnc a bs)
    (r : Bytes) : StorageIndex.parseItem si (bs ++ r) = .ok (si.step a, r) := by
  unfold StorageIndex.parseItem
  cases h with
  | manifest i s h bi bs hh hi hs =>
    simp only [List.append_assoc]
    obtain ⟨c, l, hp⟩ := parse16_start hh (by decide) (bi ++ (bs ++ r))
    rw [P.bind_ok hp]
    simp only
    rw [P.bind_ok (exGuid_enc hi _), P.bind_ok (reads_serial _ _ hs _)]
    rfl
  | cell c i s h bc bi bs hh hc hi hs =>
    simp only [List.append_assoc]
    obtain ⟨_, l, hp⟩ := parse16_start hh (by decide) (bc ++ (bi ++ (bs ++ r)))
    rw [P.bind_ok hp]
    simp only
    rw [P.bind_ok (reads_cellId _ _ hc _), P.bind_ok (exGuid_enc hi _),
      P.bind_ok (reads_serial _ _ hs _)]
    rfl
  | revision i m s h bi bm bs hh hi hm hs =>
    simp only [List.append_assoc]
    obtain ⟨_, l, hp⟩ := parse16_start hh (by decide) (bi ++ (bm ++ (bs ++ r)))
    rw [P.bind_ok hp]
    simp only
    rw [P.bind_ok (exGuid_enc hi _), P.bind_ok (exGuid_enc hm _),
      P.bind_ok (reads_serial _ _ hs _)]
    rfl

/-- Folding list appends/map inserts is the same as collecting first. -/
theorem foldl_index (items : List IndexItem) (si : StorageIndex) :
    items.foldl StorageIndex.step si =
      ⟨si.manifestMappings ++ (indexOf items).manifestMappings,
       si.cellMappings.extend (items.filterMap fun
        | .cell c i s => some (c, ⟨c, i, s⟩)
        | _ => none),
       si.revisionMappings.extend (items.filterMap fun
        | .revision i m s => some (i, ⟨m, s⟩)
        | _ => none)⟩ := by
  induction items generalizing si with
  | nil => simp [indexOf, Map.extend]
  | cons a items ih =>
    rw [List.foldl_cons, ih]
    cases a <;> simp [StorageIndex.step, indexOf, Map.extend]

theorem reads_storageIndex {items : List IndexItem} {bs : Bytes} (h : ListEnc IndexItemEnc items bs)
    (r : Bytes) :
    StorageIndex.parse (bs ++ (dataElementEnd ++ r)) = .ok (indexOf items, r) := by
  have := untilEnd8_reads (ty := .dataElement) (by decide) indexItem_low indexItem_reads h
    StorageIndex.empty r
  rw [foldl_index] at this
  exact this

/-! ### Storage manifest -/

theorem root_reads (m : Map ExGuid CellId) (a : ExGuid × CellId) (bs : Bytes) (h : RootEnc a bs)
    (r : Bytes) : StorageManifest.parseItem m (bs ++ r) = .ok (m.insert a.1 a.2, r) := by
  unfold StorageManifest.parseItem
  cases h with
  | mk x c h br bc hh hr hc =>
    simp only [List.append_assoc]
    rw [P.bind_ok (tryParse16_start hh (by decide) _), P.bind_ok (exGuid_enc hr _),
      P.bind_ok (reads_cellId _ _ hc _)]
    rfl

theorem root_low (a : ExGuid × CellId) (bs : Bytes) (h : RootEnc a bs) : StartsLow bs := by
  cases h with
  | mk _ _ _ _ _ hh => exact (startsLow16 hh).append _

theorem reads_storageManifest {id : Guid} {roots : List (ExGuid × CellId)} {h bs : Bytes}
    (hh : Start16 .storageManifest h) (hr : ListEnc RootEnc roots bs) (r : Bytes) :
    StorageManifest.parse (h ++ (guid id ++ (bs ++ (dataElementEnd ++ r)))) =
      .ok (⟨id, Map.ofList roots⟩, r) := by
  unfold StorageManifest.parse
  rw [P.bind_ok (tryParse16_start hh (by decide) _), P.bind_ok (Guid.parse_guid _ _),
    dataElementEnd, P.bind_ok (untilEnd8_reads (ty := .dataElement) (by decide) root_low root_reads hr [] r)]
  rfl

/-! ### Cell manifest -/

theorem reads_cellManifest {id : ExGuid} {h bi : Bytes} (hh : Start16 .cellManifest h)
    (hi : ExGuidEnc id bi) (r : Bytes) :
    CellManifest.parse (h ++ (bi ++ (dataElementEnd ++ r))) = .ok (id, r) := by
  unfold CellManifest.parse
  rw [P.bind_ok (tryParse16_start hh (by decide) _), P.bind_ok (exGuid_enc hi _),
    dataElementEnd, P.bind_ok (tryParseEnd8_end (by decide) r)]
  rfl

/-! ### Revision manifest -/

def RevisionManifest.step (m : RevisionManifest) : RevisionItem → RevisionManifest
  | .root r o => { m with rootDeclare := m.rootDeclare ++ [⟨r, o⟩] }
  | .group g => { m with groupReferences := m.groupReferences ++ [g] }

theorem revisionItem_low (a : RevisionItem) (bs : Bytes) (h : RevisionItemEnc a bs) :
    StartsLow bs := by
  cases h with
  | root _ _ _ _ _ hh => exact (startsLow16 hh).append _
  | group _ _ _ hh => exact (startsLow16 hh).append _

theorem revisionItem_reads (m : RevisionManifest) (a : RevisionItem) (bs : Bytes)
    (h : RevisionItemEnc a bs) (r : Bytes) :
    RevisionManifest.parseItem m (bs ++ r) = .ok (m.step a, r) := by
  unfold RevisionManifest.parseItem
  cases h with
  | root x o h br bo hh hr ho =>
    simp only [List.append_assoc]
    obtain ⟨_, l, hp⟩ := parse16_start hh (by decide) (br ++ (bo ++ r))
    rw [P.bind_ok hp]
    simp only
    rw [P.bind_ok (exGuid_enc hr _), P.bind_ok (exGuid_enc ho _)]
    rfl
  | group g h bg hh hg =>
    simp only [List.append_assoc]
    obtain ⟨_, l, hp⟩ := parse16_start hh (by decide) (bg ++ r)
    rw [P.bind_ok hp]
    simp only
    rw [P.bind_ok (exGuid_enc hg _)]
    rfl

theorem foldl_revision (items : List RevisionItem) (m : RevisionManifest) :
    items.foldl RevisionManifest.step m =
      ⟨m.revId, m.baseRevId,
       m.rootDeclare ++ (revisionOf m.revId m.baseRevId items).rootDeclare,
       m.groupReferences ++ (revisionOf m.revId m.baseRevId items).groupReferences⟩ := by
  induction items generalizing m with
  | nil => simp [revisionOf]
  | cons a items ih =>
    rw [List.foldl_cons, ih]
    cases a <;> simp [RevisionManifest.step, revisionOf]

theorem reads_revisionManifest {x b : ExGuid} {items : List RevisionItem} {h br bb bs : Bytes}
    (hh : Start16 .revisionManifest h)
    (hr : ExGuidEnc x br) (hb : ExGuidEnc b bb) (hi : ListEnc RevisionItemEnc items bs)
    (r : Bytes) :
    RevisionManifest.parse (h ++ (br ++ (bb ++ (bs ++ (dataElementEnd ++ r))))) =
      .ok (revisionOf x b items, r) := by
  unfold RevisionManifest.parse
  have := untilEnd8_reads (ty := .dataElement) (by decide) revisionItem_low revisionItem_reads hi
    ⟨x, b, [], []⟩ r
  rw [foldl_revision] at this
  rw [P.bind_ok (tryParse16_start hh (by decide) _), P.bind_ok (exGuid_enc hr _),
    P.bind_ok (exGuid_enc hb _)]
  exact this

/-! ### Object group -/

theorem declaration_low (a : Declaration) (bs : Bytes) (h : DeclarationEnc a bs) :
    StartsLow bs := by
  cases h with
  | object _ _ _ _ _ _ _ _ _ _ _ hh => exact (startsLow hh).append _
  | blob _ _ _ _ _ _ _ _ _ _ _ hh => exact (startsLow hh).append _

theorem declaration_reads (ds : List Declaration) (a : Declaration) (bs : Bytes)
    (h : DeclarationEnc a bs) (r : Bytes) :
    ObjectGroup.parseDeclaration ds (bs ++ r) = .ok (ds ++ [a], r) := by
  unfold ObjectGroup.parseDeclaration
  cases h with
  | object i p d o c h bi bp bd bo bc hh hi hp hd ho hc =>
    simp only [List.append_assoc]
    obtain ⟨_, l, hx⟩ := parse_start hh (bi ++ (bp ++ (bd ++ (bo ++ (bc ++ r)))))
    rw [P.bind_ok hx]
    simp only
    rw [P.bind_ok (exGuid_enc hi _), P.bind_ok (compact_enc hp _), P.bind_ok (compact_enc hd _),
      P.bind_ok (compact_enc ho _), P.bind_ok (compact_enc hc _)]
    rfl
  | blob i b p o c h bi bb bp bo bc hh hi hb hp ho hc =>
    simp only [List.append_assoc]
    obtain ⟨_, l, hx⟩ := parse_start hh (bi ++ (bb ++ (bp ++ (bo ++ (bc ++ r)))))
    rw [P.bind_ok hx]
    simp only
    rw [P.bind_ok (exGuid_enc hi _), P.bind_ok (exGuid_enc hb _), P.bind_ok (compact_enc hp _),
      P.bind_ok (compact_enc ho _), P.bind_ok (compact_enc hc _)]
    rfl

theorem groupData_low (a : GroupData) (bs : Bytes) (h : GroupDataEnc a bs) : StartsLow bs := by
  cases h with
  | object _ _ _ _ _ _ _ hh => exact (startsLow hh).append _
  | excluded _ _ _ _ _ _ _ hh => exact (startsLow hh).append _
  | blobReference _ _ _ _ _ _ _ hh => exact (startsLow hh).append _

theorem groupData_reads (os : List GroupData) (a : GroupData) (bs : Bytes)
    (h : GroupDataEnc a bs) (r : Bytes) :
    ObjectGroup.parseDataItem os (bs ++ r) = .ok (os ++ [a], r) := by
  unfold ObjectGroup.parseDataItem
  cases h with
  | object g c d h bg bc bd hh hg hc hd =>
    simp only [List.append_assoc]
    obtain ⟨_, l, hx⟩ := parse_start hh (bg ++ (bc ++ (bd ++ r)))
    rw [P.bind_ok hx]
    simp only
    rw [P.bind_ok (reads_exguidArray _ _ hg _), P.bind_ok (reads_cellIdArray _ _ hc _),
      P.bind_ok (reads_binary _ _ hd _)]
    rfl
  | excluded g c n h bg bc bn hh hg hc hn =>
    simp only [List.append_assoc]
    obtain ⟨_, l, hx⟩ := parse_start hh (bg ++ (bc ++ (bn ++ r)))
    rw [P.bind_ok hx]
    simp only
    rw [P.bind_ok (reads_exguidArray _ _ hg _), P.bind_ok (reads_cellIdArray _ _ hc _),
      P.bind_ok (compact_enc hn _)]
    rfl
  | blobReference g c b h bg bc bb hh hg hc hb =>
    simp only [List.append_assoc]
    obtain ⟨_, l, hx⟩ := parse_start hh (bg ++ (bc ++ (bb ++ r)))
    rw [P.bind_ok hx]
    simp only
    rw [P.bind_ok (reads_exguidArray _ _ hg _), P.bind_ok (reads_cellIdArray _ _ hc _),
      P.bind_ok (exGuid_enc hb _)]
    rfl

theorem foldl_snoc (as acc : List α) : as.foldl (fun l a => l ++ [a]) acc = acc ++ as := by
  induction as generalizing acc with
  | nil => simp
  | cons a as ih => rw [List.foldl_cons, ih]; simp

theorem reads_objectGroup {ds : List Declaration} {os : List GroupData} {h bd h' bo : Bytes}
    (hh : Start .objectGroupDeclaration h)
    (hd : ListEnc DeclarationEnc ds bd) (hh' : Start .objectGroupData h')
    (ho : ListEnc GroupDataEnc os bo) (r : Bytes) :
    ObjectGroup.parse (h ++ (bd ++ (end8 (typeCode .objectGroupDeclaration) ++
          (h' ++ (bo ++ (end8 (typeCode .objectGroupData) ++ (dataElementEnd ++ r))))))) =
      .ok (⟨ds, [], os⟩, r) := by
  unfold ObjectGroup.parse ObjectGroup.parseDeclarations ObjectGroup.parseMetadataOpt
    ObjectGroup.parseData
  have h1 := untilEnd8_reads (ty := .objectGroupDeclaration) (by decide) declaration_low
    declaration_reads hd [] (h' ++ (bo ++ (end8 (typeCode .objectGroupData) ++
      (dataElementEnd ++ r))))
  have h2 := untilEnd8_reads (ty := .objectGroupData) (by decide) groupData_low
    groupData_reads ho [] (dataElementEnd ++ r)
  rw [foldl_snoc, List.nil_append] at h1 h2
  obtain ⟨_, l, hx⟩ := parse_start hh' (bo ++ (end8 (typeCode .objectGroupData) ++
      (dataElementEnd ++ r)))
  rw [P.bind_assoc, P.bind_ok (tryParse_start hh _), P.bind_ok h1, P.bind_assoc, P.bind_ok hx]
  simp only
  rw [P.pure_bind, P.bind_ok h2, dataElementEnd, P.bind_ok (tryParseEnd8_end (by decide) r)]
  rfl

/-! ### Elements and package -/

def Package.step (pkg : Package) (e : Element) : Package :=
  match e.body with
  | .storageIndex items =>
    { pkg with storageIndexes := pkg.storageIndexes.insert e.id (indexOf items) }
  | .storageManifest g roots =>
    { pkg with storageManifests := pkg.storageManifests.insert e.id ⟨g, Map.ofList roots⟩ }
  | .cellManifest g => { pkg with cellManifests := pkg.cellManifests.insert e.id g }
  | .revisionManifest r b items =>
    { pkg with revisionManifests := pkg.revisionManifests.insert e.id (revisionOf r b items) }
  | .objectGroup ds os =>
    { pkg with objectGroups := pkg.objectGroups.insert e.id ⟨ds, [], os⟩ }
  | .blob d => { pkg with blobs := pkg.blobs.insert e.id d }

theorem element_low (e : Element) (bs : Bytes) (h : ElementEnc e bs) : StartsLow bs := by
  cases h with
  | mk _ _ _ _ _ _ _ _ hh => exact (startsLow16 hh).append _

theorem element_reads (pkg : Package) (e : Element) (bs : Bytes) (h : ElementEnc e bs)
    (r : Bytes) : Package.parseElement pkg (bs ++ r) = .ok (pkg.step e, r) := by
  unfold Package.parseElement
  cases h with
  | mk id body serial h bi bs bt bb hh hi hs ht hb =>
    simp only [List.append_assoc]
    rw [P.bind_ok (tryParse16_start hh (by decide) _), P.bind_ok (exGuid_enc hi _),
      P.bind_ok (reads_serial _ _ hs _), P.bind_ok (compact_enc ht _)]
    cases hb with
    | storageIndex items bs h =>
      simp only [bodyType, List.append_assoc]
      rw [P.bind_ok (reads_storageIndex h r)]
      rfl
    | storageManifest id roots h bs hh hr =>
      simp only [bodyType, List.append_assoc]
      rw [P.bind_ok (reads_storageManifest hh hr r)]
      rfl
    | cellManifest id h bi hh hi =>
      simp only [bodyType, List.append_assoc]
      rw [P.bind_ok (reads_cellManifest hh hi r)]
      rfl
    | revisionManifest x b items h br bb bs hh hr hb hi =>
      simp only [bodyType, List.append_assoc]
      rw [P.bind_ok (reads_revisionManifest hh hr hb hi r)]
      rfl
    | objectGroup ds os h bd h' bo hh hd hh' ho =>
      simp only [bodyType, List.append_assoc]
      rw [P.bind_ok (reads_objectGroup hh hd hh' ho r)]
      rfl
    | blob d h bd hh hd =>
      simp only [bodyType, List.append_assoc]
      have : ObjectDataBlob.parse (h ++ (bd ++ (dataElementEnd ++ r))) = .ok (d, r) := by
        unfold ObjectDataBlob.parse
        rw [P.bind_ok (tryParse_start hh _), P.bind_ok (reads_binary _ _ hd _), dataElementEnd,
          P.bind_ok (tryParseEnd8_end (by decide) r)]
        rfl
      rw [P.bind_ok this]
      rfl

theorem foldl_package (es : List Element) (pkg : Package) :
    es.foldl Package.step pkg =
      ⟨pkg.storageIndexes.extend (storageIndexes es),
       pkg.storageManifests.extend (storageManifests es),
       pkg.cellManifests.extend (cellManifests es),
       pkg.revisionManifests.extend (revisionManifests es),
       pkg.objectGroups.extend (objectGroups es),
       pkg.fragments,
       pkg.blobs.extend (blobs es)⟩ := by
  induction es generalizing pkg with
  | nil => rfl
  | cons e es ih =>
    rw [List.foldl_cons, ih]
    obtain ⟨id, body⟩ := e
    cases body <;> rfl

theorem reads_package : ∀ es bs, PackageEnc es bs → ∀ r,
    Package.parse (bs ++ r) = .ok (packageOf es, r) := by
  intro es bs h r
  cases h with
  | mk h bs hh he =>
    unfold Package.parse getU8
    have h1 : getLE 1 (0 :: (bs ++ (end8 (typeCode .dataElementPackage) ++ r))) =
        .ok (0, bs ++ (end8 (typeCode .dataElementPackage) ++ r)) := by
      simp [getLE, leNat]
    have h2 := untilEnd8_reads (ty := .dataElementPackage) (by decide) element_low element_reads he
      Package.empty r
    rw [foldl_package] at h2
    simp only [List.append_assoc, List.cons_append]
    rw [P.bind_ok (tryParse16_start hh (by decide) _), P.bind_ok h1, if_neg (by decide)]
    exact h2

theorem reads_legacy (a b c d : Guid) (si : ExGuid) (schema : Guid) (es : List Element) (bs : Bytes)
    (h : PackagingTailEnc si schema es bs) (r : Bytes) :
    Packaging.parseLegacy a b c d (bs ++ r) = .ok (⟨a, b, c, d, si, schema, packageOf es⟩, r) := by
  cases h with
  | mk h bi bp hh hi hp =>
    unfold Packaging.parseLegacy getU32
    simp only [List.append_assoc]
    rw [P.bind_ok (getLE_leBytes_lt (by decide) _), if_neg (by decide),
      P.bind_ok (tryParse32_start hh _), P.bind_ok (exGuid_enc hi _),
      P.bind_ok (Guid.parse_guid _ _), P.bind_ok (reads_package _ _ hp _),
      P.bind_ok (tryParseEnd16_end r)]
    rfl

end OneNote
