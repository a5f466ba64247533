/-
Whatever a page shows is an object of its object space, and file data comes from the file.
-/
import Verif.Lemmas.WholeNotebook
import Verif.Lemmas.Arrange
import Verif.Spec.Shown

namespace OneNote

open Spec Spec.StoreContents Spec.Document Spec.Shown

mutual

theorem item_object {space : ObjectSpace} {c : Content} {i : OutlineItem} (h : InItem c i) :
    ∀ {id : ExGuid}, ItemIs space id i → ∃ id', ContentIs space id' c := by
  intro id hi
  match h with
  | .group hm hin =>
    cases hi with
    | group _ _ he =>
      obtain ⟨_, _, hx⟩ := each_mem he hm
      exact item_object hin hx
  | .element hin =>
    cases hi with
    | element he => exact element_object hin he

theorem element_object {space : ObjectSpace} {c : Content} {e : OutlineElement} (h : InElement c e) :
    ∀ {id : ExGuid}, ElementIs space id e → ∃ id', ContentIs space id' c := by
  intro id hi
  match h with
  | .here hm =>
    cases hi with
    | mk _ _ _ hc _ =>
      obtain ⟨x, _, hx⟩ := each_mem hc hm
      exact ⟨x, hx⟩
  | .child hm hin =>
    cases hi with
    | mk _ _ hc _ _ =>
      obtain ⟨_, _, hx⟩ := each_mem hc hm
      exact item_object hin hx
  | .cell ht hr hk he hin =>
    cases hi with
    | mk _ _ _ hc _ =>
      obtain ⟨_, _, hx⟩ := each_mem hc ht
      cases hx with
      | table _ _ hrows _ =>
        obtain ⟨_, _, hx⟩ := each_mem hrows hr
        cases hx with
        | mk _ _ hcells =>
          obtain ⟨_, _, hx⟩ := each_mem hcells hk
          cases hx with
          | mk _ _ hes =>
            obtain ⟨_, _, hx⟩ := each_mem hes he
            exact element_object hin hx

end

theorem outline_object {space : ObjectSpace} {p : Page} {o : Outline} (hp : PageIs space p)
    (h : OutlineOn o p) : ∃ id, OutlineIs space id o := by
  obtain ⟨_, _, _, _, _, _, _, _, title, contents, -, -, -, -, -, -, -, -, ht, hc, rfl⟩ := hp
  rcases h with h | ⟨t, hs, h⟩
  · obtain ⟨x, _, hx⟩ := each_mem hc h
    cases hx with
    | outline ho => exact ⟨x, ho⟩
  · rcases ht with ⟨_, h0⟩ | ⟨i, y, _, hy, hi⟩
    · rw [h0] at hs; cases hs
    · have hs : title = some t := hs
      rw [hy] at hs
      cases hs
      obtain ⟨_, _, cs, _, _, hcs, rfl⟩ := hi
      obtain ⟨x, _, hx⟩ := each_mem hcs h
      exact ⟨x, hx⟩

theorem content_object {space : ObjectSpace} {p : Page} {c : Content} (hp : PageIs space p)
    (h : ContentOn c p) : ∃ id, ContentIs space id c := by
  obtain ⟨o, ho, i, hi, hc⟩ := h
  obtain ⟨id, _, _, items, _, _, hitems, rfl⟩ := outline_object hp ho
  obtain ⟨x, _, hx⟩ := each_mem hitems hi
  exact item_object hc hx

theorem pageContent_object {space : ObjectSpace} {p : Page} {c : PageContent} (hp : PageIs space p)
    (h : c ∈ p.contents) : ∃ id, PageContentIs space id c := by
  obtain ⟨_, _, _, _, _, _, _, _, title, contents, -, -, -, -, -, -, -, -, ht, hc, rfl⟩ := hp
  obtain ⟨x, _, hx⟩ := each_mem hc h
  exact ⟨x, hx⟩

theorem file_object {space : ObjectSpace} {p : Page} {f : EmbeddedFile} (hp : PageIs space p)
    (h : FileOn f p) : ∃ id, FileIs space id f := by
  rcases h with h | h
  · obtain ⟨id, hi⟩ := pageContent_object hp h
    cases hi with
    | file h => exact ⟨id, h⟩
  · obtain ⟨id, hi⟩ := content_object hp h
    cases hi with
    | file h => exact ⟨id, h⟩

theorem image_object {space : ObjectSpace} {p : Page} {i : Image} (hp : PageIs space p)
    (h : ImageOn i p) : ∃ id, ImageIs space id i := by
  rcases h with h | h
  · obtain ⟨id, hi⟩ := pageContent_object hp h
    cases hi with
    | image h => exact ⟨id, h⟩
  · obtain ⟨id, hi⟩ := content_object hp h
    cases hi with
    | image h => exact ⟨id, h⟩

theorem page_space {store : Store} {name : Text} {s : Section} {p : Page}
    (h : SectionIs store name s) (hp : PageOf p s) :
    ∃ cell space, store.objectSpace cell = some space ∧ PageIs space p := by
  obtain ⟨_, _, _, _, _, _, _, _, _, _, _, _, _, hs, _⟩ := h
  obtain ⟨series, hm, hp⟩ := hp
  obtain ⟨_, _, _, _, _, _, he⟩ := each_mem hs hm
  obtain ⟨cell, _, space, hsp, hx⟩ := each_mem he hp
  exact ⟨cell, space, hsp, hx⟩

/-! ### File data -/

theorem space_blob {pkg : Package} {si : StorageIndex} {m : CellMapping} {s : ObjectSpace}
    (h : SpaceIs pkg si m s) {id : ExGuid} {o : Object} (ho : s.getObject id = some o) {d : Bytes}
    (hd : o.fileData = some d) : ∃ b, pkg.blobs.get? b = some d := by
  rcases h.contents with ⟨r, ms, _, _, hh⟩ | ⟨_, _, hn, _⟩
  · rcases first_declaring (groupsOf pkg ms) id with hn | ⟨pre, g, post, hs, hpre, hg⟩
    · rw [hh.absent id hn] at ho; cases ho
    · obtain ⟨_, o', ho', hi⟩ := hh.present id pre g post hs hpre hg
      rw [ho'] at ho
      cases ho
      rcases hi.file with ⟨_, hf⟩ | ⟨_, _, b, blob, _, hb, hf⟩
      · rw [hf] at hd; cases hd
      · rw [hf] at hd
        cases hd
        exact ⟨b, hb⟩
  · rw [hn id] at ho; cases ho

theorem store_blob {p : Packaging} {s : Store} (h : StoreIs p s) {cell : CellId} {space : ObjectSpace}
    (hs : s.objectSpace cell = some space) {id : ExGuid} {o : Object}
    (ho : space.getObject id = some o) {d : Bytes} (hd : o.fileData = some d) :
    ∃ b, p.package.blobs.get? b = some d := by
  obtain ⟨si, sm, hc, dc, _, _, _, _, _, _, _, h10, h11⟩ := h
  by_cases hm : ∃ m, IsOther si hc dc cell m
  · obtain ⟨m, hm⟩ := hm
    obtain ⟨space', hs', hi⟩ := h10 cell m hm
    have hs : s.objectSpaces.get? cell = some space := hs
    rw [hs'] at hs
    cases hs
    exact space_blob hi ho hd
  · have hs : s.objectSpaces.get? cell = some space := hs
    rw [h11 cell hm] at hs
    cases hs

theorem element_infix {e : LaxElement} {bs : Bytes} (h : LaxElementEnc e bs) {d : Bytes}
    (hd : e.piece = .body (.blob d)) : d <:+: bs := by
  cases h with
  | mk id piece serial h bi bs bt bb hh hi hs ht hb =>
    have hd : piece = .body (.blob d) := hd
    subst hd
    cases hb with
    | legal b bs hb =>
      cases hb with
      | blob d h' bd hh' hd =>
        cases hd with
        | mk c hc =>
          refine ⟨h ++ (bi ++ (bs ++ (bt ++ (h' ++ c)))), dataElementEnd, ?_⟩
          simp

theorem elements_infix {es : List LaxElement} {bs : Bytes} (h : ListEnc LaxElementEnc es bs)
    {e : LaxElement} (he : e ∈ es) {d : Bytes} (hd : e.piece = .body (.blob d)) : d <:+: bs := by
  induction h with
  | nil => cases he
  | cons h _ ih =>
    rcases List.mem_cons.1 he with rfl | he
    · exact (element_infix h hd).trans (List.prefix_append _ _).isInfix
    · exact (ih he).trans (List.suffix_append _ _).isInfix

/-- File data stands in the file as it is. -/
theorem file_infix {a b c d : Guid} {si : ExGuid} {schema : Guid} {es : List LaxElement} {bs : Bytes}
    (h : LaxFile a b c d si schema es bs) {e : LaxElement} (he : e ∈ es) {x : Bytes}
    (hx : e.piece = .body (.blob x)) : x <:+: bs := by
  have container : ∀ {bs}, LaxContainer a b c d si schema es bs → x <:+: bs := by
    intro bs h
    cases h with
    | mk bs h =>
      cases h with
      | mk h bi bp hh hi hp =>
        cases hp with
        | mk h' bs hh' hes =>
          obtain ⟨u, v, huv⟩ := elements_infix hes he hx
          refine ⟨guid a ++ (guid b ++ (guid c ++ (guid d ++ (leBytes 4 0 ++ (h ++ (bi ++ (guid schema ++
            (h' ++ 0 :: u)))))))), v ++ (end8 (typeCode .dataElementPackage) ++
            end16 (typeCode .oneNotePackaging)), ?_⟩
          rw [← huv]
          simp
  cases h with
  | packageStore bs _ h => exact container h
  | legacy bs _ _ h => exact container h
  | embedded ft f fs skipped bs _ _ _ _ _ _ _ _ h =>
    exact ((container h).trans (List.suffix_append _ _).isInfix).trans
      (List.suffix_append _ _).isInfix

theorem blob_element {es : List LaxElement} {b : ExGuid} {d : Bytes}
    (h : (laxPackageOf es).blobs.get? b = some d) : ∃ e ∈ es, e.piece = .body (.blob d) := by
  obtain ⟨e, he, hx⟩ := List.mem_filterMap.1 (mem_ofList (Map.mem_of_get? h))
  obtain ⟨i, body⟩ := e
  cases body <;> cases hx
  obtain ⟨e, he, hx⟩ := List.mem_filterMap.1 he
  obtain ⟨i', b' | f⟩ := e <;> cases hx
  exact ⟨_, he, rfl⟩

theorem store_infix {data : Bytes} {store : Store} (h : FileStore data store) {cell : CellId}
    {space : ObjectSpace} (hs : store.objectSpace cell = some space) {id : ExGuid} {o : Object}
    (ho : space.getObject id = some o) {d : Bytes} (hd : o.fileData = some d) : d <:+: data := by
  obtain ⟨p, ⟨a, b, c, d', si, schema, es, bs, rest, hl, rfl, rfl⟩, hp⟩ := h
  obtain ⟨b, hb⟩ := store_blob hp hs ho hd
  obtain ⟨e, he, hx⟩ := blob_element hb
  obtain ⟨u, v, huv⟩ := file_infix hl he hx
  exact ⟨u, v ++ rest, by rw [← huv]; simp⟩

/-- The bytes of attachments and images stand in the file as they are. -/
theorem section_infix {data : Bytes} {name : Text} {s : Section} (h : SectionFile data name s)
    {d : Bytes} (hd : BytesOf s d) : d <:+: data := by
  obtain ⟨store, hf, -, hs⟩ := h
  cases hd with
  | file hp ho =>
    obtain ⟨cell, space, hsp, hpage⟩ := page_space hs hp
    obtain ⟨id, o, n, k, dat, tags, _, _, hk, hc, _, rfl⟩ := file_object hpage ho
    exact store_infix hf hsp hk hc.data
  | image hp ho hi =>
    obtain ⟨cell, space, hsp, hpage⟩ := page_space hs hp
    obtain ⟨id, o, n, picture, embeds, tags, _, _, hpic, _, _, rfl⟩ := image_object hpage ho
    obtain ⟨pc, rfl, rfl⟩ := Option.map_eq_some_iff.1 (show picture.map (·.data) = some d from hi)
    rcases hpic with ⟨_, h0⟩ | ⟨x, y, _, hy, k, hk, hc⟩
    · cases h0
    · cases hy
      rcases hc.data with hdata | ⟨_, he⟩
      · exact store_infix hf hsp hk hdata
      · rw [he]
        exact List.nil_infix

end OneNote
