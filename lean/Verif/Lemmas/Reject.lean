/-
Packages that are rejected after some well-formed elements.
-/
import Verif.Lemmas.Sample
import Verif.Spec.Fragment

namespace OneNote

open Spec

variable {α σ : Type}

/-- The loop runs over well-formed items and then continues with the rest. -/
theorem loopEnd_skip {ty : ObjectType} {body : σ → P σ} {step : σ → α → σ}
    {R : α → Bytes → Prop} (hR : ∀ a bs, R a bs → StartsLow bs)
    (hb : ∀ acc a bs, R a bs → ∀ r, body acc (bs ++ r) = .ok (step acc a, r))
    (as : List α) (bs : Bytes) (h : ListEnc R as bs) (acc : σ) (r : Bytes) (n : Nat) :
    loopEnd ty body (as.length + n) acc (bs ++ r) = loopEnd ty body n (as.foldl step acc) r := by
  induction h generalizing acc with
  | nil => simp
  | cons ha hl ih =>
    rename_i a b as bs
    rw [List.length_cons, show as.length + 1 + n = (as.length + n) + 1 from by omega]
    obtain ⟨x, t, rfl, hx⟩ := hR _ _ ha
    rw [List.append_assoc, List.foldl_cons, ← ih, loopEnd, List.cons_append,
      P.bind_ok (peekU8_cons _ _), ← List.cons_append,
      and_3, if_neg (by simp; intro h; omega), P.bind_ok (hb _ _ _ ha _)]

theorem listEnc_length {R : α → Bytes → Prop} (hR : ∀ a bs, R a bs → StartsLow bs)
    {as : List α} {bs : Bytes} (h : ListEnc R as bs) : as.length ≤ bs.length := by
  induction h with
  | nil => simp
  | cons ha hl ih =>
    obtain ⟨x, t, rfl, -⟩ := hR _ _ ha
    simp; omega

/-- If an element that comes after well-formed ones fails, the package fails with its error. -/
theorem package_fails {es : List Element} {h bs t : Bytes} {e : Err}
    (hh : Start16 .dataElementPackage h)
    (he : ListEnc ElementEnc es bs) (hlow : StartsLow t)
    (hf : ∀ pkg, Package.parseElement pkg t = .error e) :
    Package.parse (h ++ (0 :: (bs ++ t))) = .error e := by
  unfold Package.parse getU8
  have h1 : getLE 1 (0 :: (bs ++ t)) = .ok (0, bs ++ t) := by simp [getLE, leNat]
  rw [P.bind_ok (tryParse16_start hh (by decide) _), P.bind_ok h1, if_neg (by decide),
    untilEnd8_eq]
  have hl := listEnc_length element_low he
  obtain ⟨x, t, rfl, hx⟩ := hlow
  have : (bs ++ x :: t).length + 1 = es.length + ((bs.length - es.length + t.length + 1) + 1) := by
    simp; omega
  rw [this, loopEnd_skip element_low element_reads es bs he, loopEnd, P.bind_ok (peekU8_cons _ _),
    and_3, if_neg (by simp; intro h; omega), P.bind_err (hf _)]

theorem fragment_reads {f : Fragment} {bs : Bytes} (h : FragmentEnc f bs) (r : Bytes) :
    Fragment.parse (bs ++ r) = .ok (f, dataElementEnd ++ r) := by
  cases h with
  | mk id offset length data h bi bs bo bl hh hi hs ho hl =>
    unfold Fragment.parse
    simp only [List.append_assoc]
    rw [P.bind_ok (tryParse_start hh _), P.bind_ok (exGuid_enc hi _), P.bind_ok (compact_enc hs _),
      P.bind_ok (compact_enc ho _), P.bind_ok (compact_enc hl _), P.bind_ok (readN_append _ _)]
    rfl

theorem fragmentElement_reads {id : ExGuid} {f : Fragment} {bs : Bytes}
    (h : FragmentElementEnc id f bs) (pkg : Package) (r : Bytes) :
    Package.parseElement pkg (bs ++ r) =
      .ok ({ pkg with fragments := pkg.fragments.insert id f }, dataElementEnd ++ r) := by
  cases h with
  | mk serial h bi bs bt bb hh hi hs ht hb =>
    unfold Package.parseElement
    simp only [List.append_assoc]
    rw [P.bind_ok (tryParse16_start hh (by decide) _), P.bind_ok (exGuid_enc hi _),
      P.bind_ok (reads_serial _ _ hs _), P.bind_ok (compact_enc ht _)]
    simp only
    rw [P.bind_ok (fragment_reads hb r)]
    rfl

/-- A metadata block can never be closed. -/
theorem metadata_never (s : Bytes) : ∃ e, ObjectGroup.parseMetadata s = .error e := by
  unfold ObjectGroup.parseMetadata
  rw [untilEnd8_eq]
  generalize s.length + 1 = n
  generalize ([] : List ChangeFrequency) = acc
  induction n generalizing acc s with
  | zero => exact ⟨_, rfl⟩
  | succ n ih =>
    unfold loopEnd
    cases s with
    | nil => exact ⟨_, rfl⟩
    | cons x t =>
      have hx := x.toNat_lt
      have hne : ¬ x.toNat / 2 ^ 2 = ObjectType.code .objectGroupMetadataBlock := by
        have : ObjectType.code .objectGroupMetadataBlock = 121 := rfl
        omega
      rw [P.bind_ok (peekU8_cons _ _), shr_eq, decide_eq_false hne, Bool.and_false,
        if_neg (by decide)]
      cases hb : ObjectGroup.parseMetadataItem acc (x :: t) with
      | error e => rw [P.bind_err hb]; exact ⟨_, rfl⟩
      | ok w =>
        rw [P.bind_ok hb]
        exact ih _ _

theorem metadataGroup_fails {ds : List Declaration} {bs : Bytes} (h : MetadataGroupStart ds bs)
    (r : Bytes) : ∃ e, ObjectGroup.parse (bs ++ r) = .error e := by
  cases h with
  | mk h bd h' hh hd hm =>
    unfold ObjectGroup.parse ObjectGroup.parseDeclarations ObjectGroup.parseMetadataOpt
    have h1 := untilEnd8_reads (ty := .objectGroupDeclaration) (by decide) declaration_low
      declaration_reads hd [] (h' ++ r)
    obtain ⟨_, l, hx⟩ := parse_start hm r
    obtain ⟨e, he⟩ := metadata_never r
    refine ⟨e, ?_⟩
    simp only [List.append_assoc]
    rw [P.bind_assoc, P.bind_ok (tryParse_start hh _), P.bind_ok h1, P.bind_assoc, P.bind_ok hx]
    simp only
    rw [P.bind_assoc, P.bind_err he]

theorem metadataElement_fails {id : ExGuid} {ds : List Declaration} {bs : Bytes}
    (h : MetadataElementStart id ds bs) (r : Bytes) :
    ∃ e, ∀ pkg, Package.parseElement pkg (bs ++ r) = .error e := by
  cases h with
  | mk serial h bi bs bt bb hh hi hs ht hb =>
    obtain ⟨e, he⟩ := metadataGroup_fails hb r
    refine ⟨e, fun pkg => ?_⟩
    unfold Package.parseElement
    simp only [List.append_assoc]
    rw [P.bind_ok (tryParse16_start hh (by decide) _), P.bind_ok (exGuid_enc hi _),
      P.bind_ok (reads_serial _ _ hs _), P.bind_ok (compact_enc ht _)]
    simp only
    rw [P.bind_err he]

theorem metadataElement_low {id : ExGuid} {ds : List Declaration} {bs : Bytes}
    (h : MetadataElementStart id ds bs) : StartsLow bs := by
  cases h with
  | mk _ _ _ _ _ _ hh => exact (startsLow16 hh).append _

theorem fragmentElement_low {id : ExGuid} {f : Fragment} {bs : Bytes}
    (h : FragmentElementEnc id f bs) : StartsLow bs := by
  cases h with
  | mk _ _ _ _ _ _ hh => exact (startsLow16 hh).append _

/-- The end header of a data element is not accepted where an element is expected. -/
theorem element_at_end (pkg : Package) (x : UInt8) (r : Bytes) :
    Package.parseElement pkg (dataElementEnd ++ x :: r) = .error .malformedFssHttpB := by
  have hx := x.toNat_lt
  unfold Package.parseElement ObjectHeader.tryParse16 ObjectHeader.tryParseStart
  have h2 : getLE 2 (dataElementEnd ++ x :: r) = .ok (5 + 256 * x.toNat, r) := by
    simp [dataElementEnd, end8, typeCode, leBytes, getLE, leNat]
  have h1 : ObjectHeader.parse16 (dataElementEnd ++ x :: r) = .error .malformedFssHttpB := by
    rw [ObjectHeader.parse16_eq, P.bind_ok h2, if_pos (by omega)]
    rfl
  rw [P.bind_assoc, P.bind_err h1]

theorem package_fragment_fails {es : List Element} {h bs fb t : Bytes} {id : ExGuid} {f : Fragment}
    {x : UInt8} (hh : Start16 .dataElementPackage h)
    (he : ListEnc ElementEnc es bs) (hf : FragmentElementEnc id f fb) :
    Package.parse (h ++ (0 :: (bs ++ (fb ++ x :: t)))) = .error .malformedFssHttpB := by
  unfold Package.parse getU8
  have h1 : getLE 1 (0 :: (bs ++ (fb ++ x :: t))) = .ok (0, bs ++ (fb ++ x :: t)) := by
    simp [getLE, leNat]
  rw [P.bind_ok (tryParse16_start hh (by decide) _), P.bind_ok h1, if_neg (by decide),
    untilEnd8_eq]
  have hl := listEnc_length element_low he
  obtain ⟨y, u, hy, hlow⟩ := fragmentElement_low hf
  have : (bs ++ (fb ++ x :: t)).length + 1 =
      es.length + ((bs.length - es.length + u.length + t.length + 1) + 1 + 1) := by
    subst hy; simp; omega
  rw [this, loopEnd_skip element_low element_reads es bs he, loopEnd]
  have hp : peekU8 (fb ++ x :: t) = .ok (y.toNat, fb ++ x :: t) := by subst hy; rfl
  rw [P.bind_ok hp, and_3, if_neg (by simp; intro h; omega),
    P.bind_ok (fragmentElement_reads hf _ _), loopEnd]
  have hp : peekU8 (dataElementEnd ++ x :: t) = .ok (5, dataElementEnd ++ x :: t) := rfl
  rw [P.bind_ok hp, if_neg (by decide), P.bind_err (element_at_end _ _ _)]

end OneNote
