import Verif.Proofs.Utf8
import Verif.Proofs.TreeOrder
import Verif.Props.Emitter1
import Verif.Props.Lexer1
/-
C70: texts are bytes.  The model works with characters; these theorems say what that means for the bytes of a document,
for byte offsets and for files.
-/
namespace Verif

/-- C70: lengths are lengths in bytes, and different texts have different bytes. -/
theorem C70_length (s : Str) : bytes s = (utf8s s).length ∧ ∀ t, utf8s s = utf8s t → s = t := by
  refine ⟨(utf8s_length s).symm, fun t h => ?_⟩
  have h2 : cmpStr s t = .eq := by
    rw [cmpStr_bytes, h]
    have := cmpBytes_refl_append (utf8s t) [] []
    rwa [List.append_nil] at this
  exact cmpStr_eq.1 h2

/-- C70: a sequence of bytes is the encoding of a text exactly if it is well formed (no stray or missing continuation
bytes, no overlong forms, no surrogates, nothing above U+10FFFF). -/
theorem C70_wellFormed (bs : List Nat) : (∃ s, utf8s s = bs) ↔ Utf8Ok bs :=
  ⟨fun ⟨s, h⟩ => h ▸ utf8s_wellFormed s, wellFormed_utf8s⟩

/-- the bytes of a file -/
def fileBytes (bs : ByteArray) : List Nat := bs.data.toList.map UInt8.toNat

/-- C70: the encoding used for files is this one. -/
theorem C70_encoded (doc : Str) (bs : ByteArray) : bs = encoded doc ↔ fileBytes bs = utf8s doc := by
  have h : fileBytes (encoded doc) = utf8s doc := by
    rw [fileBytes, encoded, List.utf8Encode, List.data_toByteArray, ← utf8s_lean]
  refine ⟨fun e => e ▸ h, fun e => ?_⟩
  rw [← h] at e
  have hi : Function.Injective UInt8.toNat := fun a b => UInt8.toNat_inj.1
  have := List.map_inj_right (fun a b h => hi h) |>.1 e
  exact ByteArray.ext (Array.toList_inj.1 this)

/-- C70: `parse(path)` is an I/O error exactly if the file cannot be read or is not well-formed UTF-8, and otherwise
`from_str` of the text whose bytes the file has. -/
theorem C70_parse {Path : Type} (env : Env) (read : Path → ReadResult) (path : Path) :
    ((∃ msg, parsePath env read path = .err (.ioError msg)) ↔
      (∃ msg, read path = .failed msg) ∨ ∃ bs, read path = .bytes bs ∧ ¬ Utf8Ok (fileBytes bs)) ∧
    (∀ bs doc, read path = .bytes bs → fileBytes bs = utf8s doc → parsePath env read path = fromStr env doc) := by
  constructor
  · rw [C39_parse_io]
    refine or_congr Iff.rfl (exists_congr fun bs => and_congr Iff.rfl ?_)
    rw [← C70_wellFormed]
    constructor
    · rintro h ⟨s, hs⟩
      exact h s ((C70_encoded s bs).2 hs.symm)
    · intro h s hs
      exact h ⟨s, ((C70_encoded s bs).1 hs).symm⟩
  · intro bs doc h1 h2
    rw [(C70_encoded doc bs).2 h2] at h1
    exact C39_parse_contents env read path doc h1

/-- C70: slicing a text at a byte index works exactly at the character boundaries of its bytes (`str::is_char_boundary`),
and gives the text of the first `n` bytes. -/
theorem C70_slice (s : Str) (n : Nat) :
    (sliceTo s n = none ↔ ¬ (n ≤ (utf8s s).length ∧ CharBoundary (utf8s s) n)) ∧
    ∀ p, sliceTo s n = some p → utf8s p = (utf8s s).take n := by
  have key : ∀ p, sliceTo s n = some p → ∃ q, s = p ++ q ∧ bytes p = n := fun p h => by
    obtain ⟨⟨q, hq⟩, hb⟩ := sliceTo_some h
    exact ⟨q, hq.symm, hb⟩
  constructor
  · constructor
    · rintro h ⟨-, hb⟩
      obtain ⟨p, q, rfl, hp⟩ := utf8s_split hb
      rw [← hp, sliceTo_prefix] at h
      cases h
    · intro h
      cases hs : sliceTo s n with
      | none => rfl
      | some p =>
        obtain ⟨q, rfl, rfl⟩ := key p hs
        refine absurd ⟨?_, split_boundary p q⟩ h
        rw [utf8s_append, List.length_append, utf8s_length]
        omega
  · intro p h
    obtain ⟨q, rfl, rfl⟩ := key p h
    rw [utf8s_append, ← utf8s_length, List.take_left']
    rfl

/-- C70: the offsets of a token are character boundaries of the document, and its text is the bytes between them. -/
theorem C70_token (U : CharClass) (doc : Str) (t : STok) (ht : t ∈ yielded U doc) (hu : t.tok ≠ .unknown) :
    CharBoundary (utf8s doc) t.start.position ∧ CharBoundary (utf8s doc) t.stop.position ∧
    ((utf8s doc).drop t.start.position).take (t.stop.position - t.start.position) = utf8s t.tok.text := by
  obtain ⟨pre, post, rfl, h1, h2⟩ := C05_text_is_slice U doc t ht hu
  refine ⟨?_, ?_, ?_⟩
  · rw [← h1, List.append_assoc]; exact split_boundary _ _
  · rw [← h2]; exact split_boundary _ _
  · rw [← h2, ← h1, ← utf8s_length, ← utf8s_length, utf8s_append, utf8s_append (pre ++ _), utf8s_append pre, List.append_assoc, List.drop_left',
      List.length_append, Nat.add_sub_cancel_left, List.take_left']
    · rfl
    · rfl

/-- C70: comparing texts by code points is comparing their bytes. -/
theorem C70_order (s t : Str) : cmpStr s t = cmpBytes (utf8s s) (utf8s t) := cmpStr_bytes s t

theorem C70_witness :
    utf8s (str! "aé€😀") = [0x61, 0xC3, 0xA9, 0xE2, 0x82, 0xAC, 0xF0, 0x9F, 0x98, 0x80] ∧
    sliceTo (str! "aé;") 2 = none ∧ sliceTo (str! "aé;") 3 = some (str! "aé") ∧
    cmpStr (str! "\uFFFD") (str! "😀") = .lt := by
  decide +kernel

/-- Overlong forms, surrogates and stray continuation bytes are not well formed. -/
theorem C70_ill_formed : ¬ Utf8Ok [0xC0, 0x80] ∧ ¬ Utf8Ok [0xED, 0xA0, 0x80] ∧ ¬ Utf8Ok [0x80] ∧
    ¬ Utf8Ok [0xF4, 0x90, 0x80, 0x80] := by
  refine ⟨?_, ?_, ?_, ?_⟩ <;>
  · intro h
    cases h <;> omega

end Verif
