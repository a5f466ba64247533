/-
Property sets: the parser reads back what was written, and accepts nothing else.
-/
import Verif.Lemmas.Good
import Verif.Lemmas.Size
import Verif.Spec.PropSet

namespace OneNote

open Spec

variable {α β : Type}

theorem and_1f (x : Nat) : x &&& 31 = x % 32 := Nat.and_two_pow_sub_one_eq_mod x 5
theorem and_ff (x : Nat) : x &&& 255 = x % 256 := Nat.and_two_pow_sub_one_eq_mod x 8
theorem and_ffffff (x : Nat) : x &&& 16777215 = x % 16777216 := Nat.and_two_pow_sub_one_eq_mod x 24
theorem and_3ffffff (x : Nat) : x &&& 67108863 = x % 67108864 := Nat.and_two_pow_sub_one_eq_mod x 26

/-! ### The id word -/

theorem PropertyId.propType_word {key type : Nat} (top : Bool) (hk : key < 2 ^ 26)
    (ht : type < 32) : PropertyId.propType (idWord key type top) = type := by
  unfold PropertyId.propType idWord
  rw [shr_eq, and_1f]
  cases top <;> simp <;> omega

theorem PropertyId.id_word {key type : Nat} (top : Bool) (hk : key < 2 ^ 26) :
    PropertyId.id (idWord key type top) = key := by
  unfold PropertyId.id idWord
  rw [and_3ffffff]
  cases top <;> simp <;> omega

theorem PropertyId.bool_word {key type : Nat} (top : Bool) (hk : key < 2 ^ 26)
    (ht : type < 32) : PropertyId.bool (idWord key type top) = top := by
  unfold PropertyId.bool idWord
  rw [shr_eq]
  cases top <;> simp <;> omega

theorem idWord_lt {key type : Nat} (top : Bool) (hk : key < 2 ^ 26) (ht : type < 32) :
    idWord key type top < 256 ^ 4 := by
  unfold idWord
  cases top <;> simp <;> omega

/-- Every 32-bit word is an id word. -/
theorem idWord_surj (w : Nat) (hw : w < 256 ^ 4) :
    w = idWord (PropertyId.id w) (PropertyId.propType w) (PropertyId.bool w) ∧
      PropertyId.id w < 2 ^ 26 ∧ PropertyId.propType w < 32 := by
  unfold idWord PropertyId.id PropertyId.propType PropertyId.bool
  rw [shr_eq, shr_eq, and_1f, and_3ffffff]
  refine ⟨?_, by omega, by omega⟩
  by_cases h : w / 2 ^ 31 = 1
  · simp [h]; omega
  · simp [h]; omega

theorem valueEnc_type_lt {t : Nat} {top : Bool} {v : PropertyValue} {bs : Bytes}
    (h : ValueEnc t top v bs) : t < 32 := by
  cases h <;> decide

/-! ### Reading back -/

mutual
theorem valueEnc_reads {t : Nat} {top : Bool} {v : PropertyValue} {bs : Bytes} :
    ValueEnc t top v bs → ∀ (n key : Nat), key < 2 ^ 26 → bs.length ≤ n → ∀ r,
      PropertyValue.parseWith (PropertySet.parseFuel n) (idWord key t top) (bs ++ r) = .ok (v, r)
  | .empty top, n, key, hk, _, r => by
    unfold PropertyValue.parseWith; rw [PropertyId.propType_word _ hk (by decide)]; rfl
  | .bool top, n, key, hk, _, r => by
    unfold PropertyValue.parseWith; rw [PropertyId.propType_word _ hk (by decide)]
    simp only [P.pure_apply, PropertyId.bool_word top hk (show 2 < 32 by decide)]; rfl
  | .u8 top v h, n, key, hk, _, r => by
    unfold PropertyValue.parseWith; rw [PropertyId.propType_word _ hk (by decide)]
    exact P.bind_ok (getLE_leBytes_lt h r)
  | .u16 top v h, n, key, hk, _, r => by
    unfold PropertyValue.parseWith; rw [PropertyId.propType_word _ hk (by decide)]
    exact P.bind_ok (getLE_leBytes_lt h r)
  | .u32 top v h, n, key, hk, _, r => by
    unfold PropertyValue.parseWith; rw [PropertyId.propType_word _ hk (by decide)]
    exact P.bind_ok (getLE_leBytes_lt h r)
  | .u64 top v h, n, key, hk, _, r => by
    unfold PropertyValue.parseWith; rw [PropertyId.propType_word _ hk (by decide)]
    exact P.bind_ok (getLE_leBytes_lt h r)
  | .vec top data h, n, key, hk, _, r => by
    unfold PropertyValue.parseWith; rw [PropertyId.propType_word _ hk (by decide)]
    rw [List.append_assoc]
    exact (P.bind_ok (getLE_leBytes_lt h _)).trans (P.bind_ok (readN_append data r))
  | .objectId top, n, key, hk, _, r => by
    unfold PropertyValue.parseWith; rw [PropertyId.propType_word _ hk (by decide)]; rfl
  | .objectIds top v h, n, key, hk, _, r => by
    unfold PropertyValue.parseWith; rw [PropertyId.propType_word _ hk (by decide)]
    exact P.bind_ok (getLE_leBytes_lt h r)
  | .objectSpaceId top, n, key, hk, _, r => by
    unfold PropertyValue.parseWith; rw [PropertyId.propType_word _ hk (by decide)]; rfl
  | .objectSpaceIds top v h, n, key, hk, _, r => by
    unfold PropertyValue.parseWith; rw [PropertyId.propType_word _ hk (by decide)]
    exact P.bind_ok (getLE_leBytes_lt h r)
  | .contextId top, n, key, hk, _, r => by
    unfold PropertyValue.parseWith; rw [PropertyId.propType_word _ hk (by decide)]; rfl
  | .contextIds top v h, n, key, hk, _, r => by
    unfold PropertyValue.parseWith; rw [PropertyId.propType_word _ hk (by decide)]
    exact P.bind_ok (getLE_leBytes_lt h r)
  | .propertyValues top id sets bs hid hl h, n, key, hk, hn, r => by
    unfold PropertyValue.parseWith; rw [PropertyId.propType_word _ hk (by decide)]
    rw [List.append_assoc, List.append_assoc]
    refine (P.bind_ok (getLE_leBytes_lt hl _)).trans
      ((P.bind_ok (getLE_leBytes_lt hid _)).trans ?_)
    exact P.bind_ok (setsEnc_reads h n (by simp at hn; omega) r)
  | .propertySet top es bs h, n, key, hk, hn, r => by
    unfold PropertyValue.parseWith; rw [PropertyId.propType_word _ hk (by decide)]
    exact P.bind_ok (setEnc_reads h n hn r)

theorem setEnc_reads {es : List (Nat × PropertyValue)} {bs : Bytes} :
    SetEnc es bs → ∀ (n : Nat), bs.length ≤ n → ∀ r,
      PropertySet.parseFuel n (bs ++ r) = .ok (setOf es, r)
  | .mk es words body hl h, n, hn, r => by
    cases n with
    | zero => simp at hn
    | succ n =>
      obtain ⟨ids, h1, h2⟩ := entriesEnc_reads h n (by simp at hn; omega)
      rw [List.append_assoc, List.append_assoc]
      refine (P.bind_ok (getLE_leBytes_lt hl _)).trans ((P.bind_ok (h1 _)).trans ?_)
      rw [P.bind_ok (h2 0 r)]
      rfl

theorem entriesEnc_reads {es : List (Nat × PropertyValue)} {words body : Bytes} :
    EntriesEnc es words body → ∀ (n : Nat), body.length ≤ n →
      ∃ ids, (∀ r, replicateP PropertyId.parse es.length (words ++ r) = .ok (ids, r)) ∧
        ∀ i r, mapP (PropertySet.parseEntry (PropertySet.parseFuel n)) (ids.zipIdx i) (body ++ r) =
          .ok ((es.zipIdx i).map fun e => (e.1.1, (e.2, e.1.2)), r)
  | .nil, n, _ => ⟨[], fun r => rfl, fun i r => rfl⟩
  | .cons key type top v bs es words body hk hv h, n, hn => by
    obtain ⟨ids, h1, h2⟩ := entriesEnc_reads h n (by simp at hn; omega)
    have ht := valueEnc_type_lt hv
    refine ⟨idWord key type top :: ids, fun r => ?_, fun i r => ?_⟩
    · rw [List.append_assoc]
      exact (P.bind_ok (getLE_leBytes_lt (idWord_lt top hk ht) _)).trans (P.bind_ok (h1 r))
    · have h3 := valueEnc_reads hv n key hk (by simp at hn; omega) (body ++ r)
      have h4 : PropertySet.parseEntry (PropertySet.parseFuel n) (idWord key type top, i)
          (bs ++ (body ++ r)) = .ok ((key, (i, v)), body ++ r) := by
        unfold PropertySet.parseEntry
        rw [P.bind_ok h3, PropertyId.id_word top hk]
        rfl
      rw [List.append_assoc]
      exact (P.bind_ok h4).trans (P.bind_ok (h2 (i + 1) r))

theorem setsEnc_reads {sets : List PropertySet} {bs : Bytes} :
    SetsEnc sets bs → ∀ (n : Nat), bs.length ≤ n → ∀ r,
      replicateP (PropertySet.parseFuel n) sets.length (bs ++ r) = .ok (sets, r)
  | .nil, n, _, r => rfl
  | .cons es bs sets bs' h hs, n, hn, r => by
    rw [List.append_assoc]
    exact (P.bind_ok (setEnc_reads h n (by simp at hn; omega) _)).trans
      (P.bind_ok (setsEnc_reads hs n (by simp at hn; omega) r))
end

theorem reads_propertySet {es : List (Nat × PropertyValue)} {bs : Bytes} (h : SetEnc es bs)
    (r : Bytes) : PropertySet.parse (bs ++ r) = .ok (setOf es, r) :=
  setEnc_reads h _ (by simp; omega) r

/-! ### Accepting nothing else -/

theorem mapP_eq_ok_cons {f : α → P β} {a : α} {as : List α} {s r : Bytes} {l : List β} :
    mapP f (a :: as) s = .ok (l, r) ↔
      ∃ b r' bs, f a s = .ok (b, r') ∧ mapP f as r' = .ok (bs, r) ∧ l = b :: bs := by
  show (f a >>= fun b => mapP f as >>= fun bs => pure (b :: bs)) s = _ ↔ _
  constructor
  · intro h
    rw [P.bind_eq_ok] at h
    obtain ⟨b, r', h1, h2⟩ := h
    rw [P.bind_eq_ok] at h2
    obtain ⟨bs, r'', h2, h3⟩ := h2
    cases h3
    exact ⟨b, r', bs, h1, h2, rfl⟩
  · rintro ⟨b, r', bs, h1, h2, rfl⟩
    rw [P.bind_ok h1, P.bind_ok h2]; rfl

theorem replicateP_eq_ok_succ {p : P α} {n : Nat} {s r : Bytes} {l : List α} :
    replicateP p (n + 1) s = .ok (l, r) ↔
      ∃ b r' bs, p s = .ok (b, r') ∧ replicateP p n r' = .ok (bs, r) ∧ l = b :: bs := by
  show (p >>= fun b => replicateP p n >>= fun bs => pure (b :: bs)) s = _ ↔ _
  constructor
  · intro h
    rw [P.bind_eq_ok] at h
    obtain ⟨b, r', h1, h2⟩ := h
    rw [P.bind_eq_ok] at h2
    obtain ⟨bs, r'', h2, h3⟩ := h2
    cases h3
    exact ⟨b, r', bs, h1, h2, rfl⟩
  · rintro ⟨b, r', bs, h1, h2, rfl⟩
    rw [P.bind_ok h1, P.bind_ok h2]; rfl

/-- `set` only accepts property set encodings. -/
def OnlySets (set : P PropertySet) : Prop :=
  ∀ s v r, set s = .ok (v, r) → ∃ es bs, SetEnc es bs ∧ s = bs ++ r ∧ v = setOf es

theorem replicate_sets {set : P PropertySet} (hs : OnlySets set) (n : Nat) (s r : Bytes)
    (l : List PropertySet) (h : replicateP set n s = .ok (l, r)) :
    l.length = n ∧ ∃ bs, SetsEnc l bs ∧ s = bs ++ r := by
  induction n generalizing s l with
  | zero => cases h; exact ⟨rfl, [], .nil, rfl⟩
  | succ n ih =>
    rw [replicateP_eq_ok_succ] at h
    obtain ⟨b, r', bs, h1, h2, rfl⟩ := h
    obtain ⟨es, c, he, rfl, rfl⟩ := hs _ _ _ h1
    obtain ⟨rfl, c', hc, rfl⟩ := ih _ _ h2
    exact ⟨rfl, c ++ c', .cons _ _ _ _ he hc, by simp⟩

theorem parseWith_valueEnc {set : P PropertySet} (hs : OnlySets set) (w : Nat) (s r : Bytes)
    (v : PropertyValue) (h : PropertyValue.parseWith set w s = .ok (v, r)) :
    ∃ bs, ValueEnc (PropertyId.propType w) (PropertyId.bool w) v bs ∧ s = bs ++ r := by
  unfold PropertyValue.parseWith at h
  generalize PropertyId.propType w = t at h ⊢
  generalize PropertyId.bool w = top at h ⊢
  split at h
  case h_1 => cases h; exact ⟨[], .empty _, rfl⟩
  case h_2 => cases h; exact ⟨[], .bool _, rfl⟩
  case h_3 =>
    rw [P.bind_eq_ok] at h
    obtain ⟨v, r', h1, h2⟩ := h; cases h2
    obtain ⟨hv, rfl⟩ := getLE_eq_ok.mp h1
    exact ⟨_, .u8 _ _ hv, rfl⟩
  case h_4 =>
    rw [P.bind_eq_ok] at h
    obtain ⟨v, r', h1, h2⟩ := h; cases h2
    obtain ⟨hv, rfl⟩ := getLE_eq_ok.mp h1
    exact ⟨_, .u16 _ _ hv, rfl⟩
  case h_5 =>
    rw [P.bind_eq_ok] at h
    obtain ⟨v, r', h1, h2⟩ := h; cases h2
    obtain ⟨hv, rfl⟩ := getLE_eq_ok.mp h1
    exact ⟨_, .u32 _ _ hv, rfl⟩
  case h_6 =>
    rw [P.bind_eq_ok] at h
    obtain ⟨v, r', h1, h2⟩ := h; cases h2
    obtain ⟨hv, rfl⟩ := getLE_eq_ok.mp h1
    exact ⟨_, .u64 _ _ hv, rfl⟩
  case h_7 =>
    rw [P.bind_eq_ok] at h
    obtain ⟨v, r', h1, h2⟩ := h
    obtain ⟨hv, rfl⟩ := getLE_eq_ok.mp h1
    rw [P.bind_eq_ok] at h2
    obtain ⟨d, r'', h2, h3⟩ := h2; cases h3
    obtain ⟨rfl, rfl⟩ := readN_eq_ok.mp h2
    exact ⟨_, .vec _ _ hv, by simp⟩
  case h_8 => cases h; exact ⟨[], .objectId _, rfl⟩
  case h_9 =>
    rw [P.bind_eq_ok] at h
    obtain ⟨v, r', h1, h2⟩ := h; cases h2
    obtain ⟨hv, rfl⟩ := getLE_eq_ok.mp h1
    exact ⟨_, .objectIds _ _ hv, rfl⟩
  case h_10 => cases h; exact ⟨[], .objectSpaceId _, rfl⟩
  case h_11 =>
    rw [P.bind_eq_ok] at h
    obtain ⟨v, r', h1, h2⟩ := h; cases h2
    obtain ⟨hv, rfl⟩ := getLE_eq_ok.mp h1
    exact ⟨_, .objectSpaceIds _ _ hv, rfl⟩
  case h_12 => cases h; exact ⟨[], .contextId _, rfl⟩
  case h_13 =>
    rw [P.bind_eq_ok] at h
    obtain ⟨v, r', h1, h2⟩ := h; cases h2
    obtain ⟨hv, rfl⟩ := getLE_eq_ok.mp h1
    exact ⟨_, .contextIds _ _ hv, rfl⟩
  case h_14 =>
    rw [P.bind_eq_ok] at h
    obtain ⟨n, r', h1, h2⟩ := h
    obtain ⟨hv, rfl⟩ := getLE_eq_ok.mp h1
    rw [P.bind_eq_ok] at h2
    obtain ⟨id, r'', h2, h3⟩ := h2
    obtain ⟨hid, rfl⟩ := getLE_eq_ok.mp h2
    rw [P.bind_eq_ok] at h3
    obtain ⟨l, r3, h3, h4⟩ := h3; cases h4
    obtain ⟨rfl, bs, hbs, rfl⟩ := replicate_sets hs _ _ _ _ h3
    exact ⟨_, .propertyValues _ _ _ _ hid hv hbs, by simp⟩
  case h_15 =>
    rw [P.bind_eq_ok] at h
    obtain ⟨x, r', h1, h2⟩ := h; cases h2
    obtain ⟨es, bs, he, rfl, rfl⟩ := hs _ _ _ h1
    exact ⟨_, .propertySet _ _ _ he, rfl⟩
  case h_16 => cases h

theorem replicate_words (n : Nat) (s r : Bytes) (l : List Nat)
    (h : replicateP PropertyId.parse n s = .ok (l, r)) :
    l.length = n ∧ (∀ w ∈ l, w < 256 ^ 4) ∧ s = (l.map (leBytes 4)).flatten ++ r := by
  induction n generalizing s l with
  | zero => cases h; exact ⟨rfl, by simp, rfl⟩
  | succ n ih =>
    rw [replicateP_eq_ok_succ] at h
    obtain ⟨b, r', bs, h1, h2, rfl⟩ := h
    obtain ⟨hv, rfl⟩ := getLE_eq_ok.mp h1
    obtain ⟨rfl, hw, rfl⟩ := ih _ _ h2
    refine ⟨rfl, ?_, by simp⟩
    intro w hw'
    rcases List.mem_cons.mp hw' with rfl | hw'
    · exact hv
    · exact hw _ hw'

theorem mapP_entries {set : P PropertySet} (hs : OnlySets set) (ids : List Nat) (i : Nat)
    (s r : Bytes) (l : List (Nat × (Nat × PropertyValue))) (hw : ∀ w ∈ ids, w < 256 ^ 4)
    (h : mapP (PropertySet.parseEntry set) (ids.zipIdx i) s = .ok (l, r)) :
    ∃ es body, es.length = ids.length ∧ EntriesEnc es (ids.map (leBytes 4)).flatten body ∧
      s = body ++ r ∧ l = (es.zipIdx i).map fun e => (e.1.1, (e.2, e.1.2)) := by
  induction ids generalizing i s l with
  | nil => cases h; exact ⟨[], [], rfl, .nil, rfl, rfl⟩
  | cons w ids ih =>
    rw [List.zipIdx_cons, mapP_eq_ok_cons] at h
    obtain ⟨b, r', bs, h1, h2, rfl⟩ := h
    unfold PropertySet.parseEntry at h1
    rw [P.bind_eq_ok] at h1
    obtain ⟨v, r'', h1, h3⟩ := h1
    cases h3
    obtain ⟨c, hc, rfl⟩ := parseWith_valueEnc hs _ _ _ _ h1
    obtain ⟨es, body, hl, he, rfl, rfl⟩ :=
      ih _ _ _ (fun w' h' => hw w' (List.mem_cons_of_mem _ h')) h2
    obtain ⟨hww, hk, ht⟩ := idWord_surj w (hw w List.mem_cons_self)
    refine ⟨(PropertyId.id w, v) :: es, c ++ body, by simp [hl], ?_, by simp, by simp⟩
    have := EntriesEnc.cons _ _ _ _ _ _ _ _ hk hc he
    rw [← hww] at this
    simpa using this

theorem onlySets_parseWith {set : P PropertySet} (hs : OnlySets set) :
    OnlySets (PropertySet.parseWith set) := by
  intro s v r h
  unfold PropertySet.parseWith at h
  rw [P.bind_eq_ok] at h
  obtain ⟨n, r1, h1, h⟩ := h
  obtain ⟨hn, rfl⟩ := getLE_eq_ok.mp h1
  rw [P.bind_eq_ok] at h
  obtain ⟨ids, r2, h2, h⟩ := h
  obtain ⟨rfl, hw, rfl⟩ := replicate_words _ _ _ _ h2
  rw [P.bind_eq_ok] at h
  obtain ⟨l, r3, h3, h⟩ := h
  cases h
  obtain ⟨es, body, hl, he, rfl, rfl⟩ := mapP_entries hs _ _ _ _ _ hw h3
  refine ⟨es, _, .mk es _ _ (by rw [hl]; exact hn) he, ?_, rfl⟩
  rw [hl]; simp

theorem onlySets_parseFuel (n : Nat) : OnlySets (PropertySet.parseFuel n) := by
  induction n with
  | zero => intro s v r h; cases h
  | succ n ih => exact onlySets_parseWith ih

theorem onlySets_parse : OnlySets PropertySet.parse :=
  fun s v r h => onlySets_parseFuel _ s v r h

end OneNote
