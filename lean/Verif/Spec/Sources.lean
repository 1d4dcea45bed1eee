import Verif.Spec.RustValue
/-
Where the contents of a syntax tree come from.
-/
namespace Verif

/-- `FromTokens w v`: every string in `v` is the text of a token of `w` or empty; positions are only found in
`WithMetaData`, where `start` is the start of a token of `w`, and `end` the end of one. -/
inductive FromTokens (w : List STok) : RV → Prop
  | text {t : STok} : t ∈ w → FromTokens w (.str t.tok.text)
  | empty : FromTokens w (.str [])
  | vec {l : List RV} : (∀ v ∈ l, FromTokens w v) → FromTokens w (.vec l)
  | located {v : RV} {t u : STok} : FromTokens w v → t ∈ w → u ∈ w →
      FromTokens w (.node (str! "WithMetaData") [str! "node", str! "start", str! "end"] [v, .pos t.start, .pos u.stop])
  | node {path : Str} {fields : List Str} {args : List RV} : path ≠ str! "WithMetaData" →
      (∀ v ∈ args, FromTokens w v) → FromTokens w (.node path fields args)

end Verif
