import Verif.Spec.Component
import Verif.Model.Devices.Memory
import Verif.Lemmas.Bytes

/-!
# Proof rules for histories of one component
-/

namespace Lrvm

open Spec

variable {D : Type} [Bus D] {pf : Profile}

theorem serveAll_nil (d : D) : serveAll d [] = some (d, []) := rfl

theorem serveAll_cons {d d' d'' : D} {r : Req} {rs : List Req} {a : Answer} {as : List Answer}
    (h : serve d r = some (d', a)) (h' : serveAll d' rs = some (d'', as)) :
    serveAll d (r :: rs) = some (d'', a :: as) := by
  simp only [serveAll, h, h', Option.bind_eq_bind, Option.bind_some]

theorem serveAll_cons_inv {d d'' : D} {r : Req} {rs : List Req} {as : List Answer}
    (h : serveAll d (r :: rs) = some (d'', as)) :
    ∃ d' a as', serve d r = some (d', a) ∧ serveAll d' rs = some (d'', as') ∧ as = a :: as' := by
  simp only [serveAll, Option.bind_eq_bind, Option.bind_eq_some_iff] at h
  obtain ⟨⟨d', a⟩, h1, ⟨d2, as'⟩, h2, h3⟩ := h
  simp only [Option.some.injEq, Prod.mk.injEq] at h3
  obtain ⟨rfl, rfl⟩ := h3
  exact ⟨d', a, as', h1, h2, rfl⟩

theorem serveAll_append {d d' d'' : D} {rs rs' : List Req} {as as' : List Answer}
    (h : serveAll d rs = some (d', as)) (h' : serveAll d' rs' = some (d'', as')) :
    serveAll d (rs ++ rs') = some (d'', as ++ as') := by
  induction rs generalizing d as with
  | nil => cases h; exact h'
  | cons r rs ih =>
    obtain ⟨d1, a, as1, h1, h2, rfl⟩ := serveAll_cons_inv h
    exact serveAll_cons h1 (ih h2)

theorem serveAll_append_inv {d d'' : D} {rs rs' : List Req} {as : List Answer}
    (h : serveAll d (rs ++ rs') = some (d'', as)) :
    ∃ d' as1 as2, serveAll d rs = some (d', as1) ∧ serveAll d' rs' = some (d'', as2) ∧ as = as1 ++ as2 := by
  induction rs generalizing d as with
  | nil => exact ⟨d, [], as, rfl, h, rfl⟩
  | cons r rs ih =>
    obtain ⟨d1, a, as1, h1, h2, rfl⟩ := serveAll_cons_inv h
    obtain ⟨d2, x, y, h3, h4, rfl⟩ := ih h2
    exact ⟨d2, a :: x, y, serveAll_cons h1 h3, h4, rfl⟩

/-- An invariant that makes every request within `size` succeed is kept by every history. -/
theorem serveAll_inv {I : D → Prop} {size : Nat}
    (hI : ∀ d r, I d → r.Within size → ∃ d' a, serve d r = some (d', a) ∧ I d')
    (rs : List Req) {d : D} (hd : I d) (hr : ∀ r ∈ rs, r.Within size) :
    ∃ d' as, serveAll d rs = some (d', as) ∧ I d' := by
  induction rs generalizing d with
  | nil => exact ⟨d, [], rfl, hd⟩
  | cons r rs ih =>
    obtain ⟨d1, a, h1, hd1⟩ := hI d r hd (hr r List.mem_cons_self)
    obtain ⟨d2, as, h2, hd2⟩ := ih hd1 fun r h => hr r (List.mem_cons_of_mem _ h)
    exact ⟨d2, a :: as, serveAll_cons h1 h2, hd2⟩

/-- A property that every successful request keeps. -/
theorem serveAll_pres {I : D → Prop}
    (hI : ∀ d r d' a, I d → serve d r = some (d', a) → I d') {rs : List Req} {d d' : D} {as : List Answer}
    (h : serveAll d rs = some (d', as)) (hd : I d) : I d' := by
  induction rs generalizing d as with
  | nil => cases h; exact hd
  | cons r rs ih =>
    obtain ⟨d1, a, as1, h1, h2, rfl⟩ := serveAll_cons_inv h
    exact ih h2 (hI d r d1 a hd h1)

/-- The eight words of encoded metadata. -/
theorem DeviceMetadata.words (m : DeviceMetadata) : bytesToWords m.toBytes =
    [(m.hwId >>> 32).setWidth 32, m.hwId.setWidth 32, m.sizeBytes, (m.category.encode >>> 32).setWidth 32,
     m.category.encode.setWidth 32, m.model.getD 0, ((m.data.getD 0) >>> 32).setWidth 32, (m.data.getD 0).setWidth 32] := by
  unfold DeviceMetadata.toBytes
  simp only [List.append_assoc]
  rw [bytesToWords_be8, bytesToWords_be4, bytesToWords_be8, bytesToWords_be4]
  rw [← List.append_nil (beBytes 8 _), bytesToWords_be8, bytesToWords_nil]

theorem DeviceMetadata.encode_eq (m : DeviceMetadata) : m.encode = some #v[(m.hwId >>> 32).setWidth 32, m.hwId.setWidth 32,
    m.sizeBytes, (m.category.encode >>> 32).setWidth 32, m.category.encode.setWidth 32, m.model.getD 0,
    ((m.data.getD 0) >>> 32).setWidth 32, (m.data.getD 0).setWidth 32] := by
  unfold DeviceMetadata.encode
  simp only [DeviceMetadata.words]
  rfl

/-- A component that describes itself with `DeviceMetadata::new(..).encode()` advertises the size it gave. -/
theorem newEncode_size {hw : U64} {size : Word} {cat : DeviceCategory} {md : Option Word} {dt : Option U64}
    (h : size.toNat % 4 = 0) :
    ∃ m : Metadata, (do let m ← DeviceMetadata.new hw size cat md dt; m.encode) = some m ∧ m[2] = size := by
  have h4 : size % 4 = 0 := by apply BitVec.eq_of_toNat_eq; rw [BitVec.toNat_umod]; exact h
  have : DeviceMetadata.new hw size cat md dt = some ⟨hw, size, cat, md, dt⟩ := by
    unfold DeviceMetadata.new assert
    rw [h4]; rfl
  rw [this]
  exact ⟨_, DeviceMetadata.encode_eq _, rfl⟩

end Lrvm
