import Verif.Props.Parser1
/-
Generated by tools/conformance.py from /repo/tests/parser_tests.rs: the cases of the project's own tests, evaluated
on the model.  (Validation of the model, not proofs of properties.)
-/
namespace Verif

example : (lexDoc demoU (str! "| Foo _ Bar => Uint32 42")).map (fun ts => (parseAs .pmExprClause ts).isSome) = some true := by
  decide +kernel
example : (lexDoc demoU (str! "| Bar _ => Uint32 42")).map (fun ts => (parseAs .pmExprClause ts).isSome) = some true := by
  decide +kernel
example : (lexDoc demoU (str! "| Bar _ => Int32 -1")).map (fun ts => (parseAs .pmExprClause ts).isSome) = some true := by
  decide +kernel
example : (lexDoc demoU (str! "| Foo _ => let x = Uint32 1 in x")).map (fun ts => (parseAs .pmExprClause ts).isSome) = some true := by
  decide +kernel
example : (lexDoc demoU (str! "| Foo =>")).map (fun ts => (parseAs .pmExprClause ts).isSome) = some false := by
  decide +kernel
example : (lexDoc demoU (str! "| => 42")).map (fun ts => (parseAs .pmExprClause ts).isSome) = some false := by
  decide +kernel
example : (lexDoc demoU (str! "| _ => ")).map (fun ts => (parseAs .pmExprClause ts).isSome) = some false := by
  decide +kernel
example : (lexDoc demoU (str! "| () => 42")).map (fun ts => (parseAs .pmExprClause ts).isSome) = some false := by
  decide +kernel
example : (lexDoc demoU (str! "| Foo + Bar => 42")).map (fun ts => (parseAs .pmExprClause ts).isSome) = some false := by
  decide +kernel
example : (lexDoc demoU (str! "foo: Uint32 42")).map (fun ts => (parseAs .messageEntry ts).isSome) = some true := by
  decide +kernel
example : (lexDoc demoU (str! "foo: bar")).map (fun ts => (parseAs .messageEntry ts).isSome) = some true := by
  decide +kernel
example : (lexDoc demoU (str! "foo: 0x1337")).map (fun ts => (parseAs .messageEntry ts).isSome) = some true := by
  decide +kernel
example : (lexDoc demoU (str! "foo")).map (fun ts => (parseAs .messageEntry ts).isSome) = some false := by
  decide +kernel
example : (lexDoc demoU (str! "foo: bar: baz")).map (fun ts => (parseAs .messageEntry ts).isSome) = some false := by
  decide +kernel
example : (lexDoc demoU (str! ": 42")).map (fun ts => (parseAs .messageEntry ts).isSome) = some false := by
  decide +kernel
example : (lexDoc demoU (str! ": Int")).map (fun ts => (parseAs .typeAnn ts).isSome) = some true := by
  decide +kernel
example : (lexDoc demoU (str! ": MyTypeOrEnumLikeIdentifier")).map (fun ts => (parseAs .typeAnn ts).isSome) = some true := by
  decide +kernel
example : (lexDoc demoU (str! ": ByStr32")).map (fun ts => (parseAs .typeAnn ts).isSome) = some true := by
  decide +kernel
example : (lexDoc demoU (str! ": (Map ByStr32 Uint32)")).map (fun ts => (parseAs .typeAnn ts).isSome) = some true := by
  decide +kernel
example : (lexDoc demoU (str! ": (Map ByStr32 (Map ByStr32 Uint32))")).map (fun ts => (parseAs .typeAnn ts).isSome) = some true := by
  decide +kernel
example : (lexDoc demoU (str! ": (List MyTypeOrEnumLikeIdentifier)")).map (fun ts => (parseAs .typeAnn ts).isSome) = some true := by
  decide +kernel
example : (lexDoc demoU (str! ": (Pair MyTypeOrEnumLikeIdentifier1 MyTypeOrEnumLikeIdentifier2)")).map (fun ts => (parseAs .typeAnn ts).isSome) = some true := by
  decide +kernel
example : (lexDoc demoU (str! ": (Pair (Pair Int Bool) (List MyTypeOrEnumLikeIdentifier))")).map (fun ts => (parseAs .typeAnn ts).isSome) = some true := by
  decide +kernel
example : (lexDoc demoU (str! ": MyTypeOrEnumLikeIdentifier (")).map (fun ts => (parseAs .typeAnn ts).isSome) = some false := by
  decide +kernel
example : (lexDoc demoU (str! ": (Map MyTypeOrEnumLikeIdentifier)")).map (fun ts => (parseAs .typeAnn ts).isSome) = some false := by
  decide +kernel
example : (lexDoc demoU (str! ": (Pair MyTypeOrEnumLikeIdentifier1 MyTypeOrEnumLikeIdentifier2")).map (fun ts => (parseAs .typeAnn ts).isSome) = some false := by
  decide +kernel
example : (lexDoc demoU (str! "Int")).map (fun ts => (parseAs .typeAnn ts).isSome) = some false := by
  decide +kernel
example : (lexDoc demoU (str! ": 42")).map (fun ts => (parseAs .typeAnn ts).isSome) = some false := by
  decide +kernel
example : (lexDoc demoU (str! "foo: Int")).map (fun ts => (parseAs .typedId ts).isSome) = some true := by
  decide +kernel
example : (lexDoc demoU (str! "bar: ByStr20")).map (fun ts => (parseAs .typedId ts).isSome) = some true := by
  decide +kernel
example : (lexDoc demoU (str! "baz: (Int Bool)")).map (fun ts => (parseAs .typedId ts).isSome) = some true := by
  decide +kernel
example : (lexDoc demoU (str! "1foo: Int")).map (fun ts => (parseAs .typedId ts).isSome) = some false := by
  decide +kernel
example : (lexDoc demoU (str! "foo: int")).map (fun ts => (parseAs .typedId ts).isSome) = some false := by
  decide +kernel
example : (lexDoc demoU (str! "foo: (,)")).map (fun ts => (parseAs .typedId ts).isSome) = some false := by
  decide +kernel
example : (lexDoc demoU (str! "foo <- bar")).map (fun ts => (parseAs .statement ts).isSome) = some true := by
  decide +kernel
example : (lexDoc demoU (str! "remoteFetchStatement")).map (fun ts => (parseAs .statement ts).isSome) = some true := by
  decide +kernel
example : (lexDoc demoU (str! "foo := bar")).map (fun ts => (parseAs .statement ts).isSome) = some true := by
  decide +kernel
example : (lexDoc demoU (str! "foo = Uint32 42")).map (fun ts => (parseAs .statement ts).isSome) = some true := by
  decide +kernel
example : (lexDoc demoU (str! "foo <- &Event")).map (fun ts => (parseAs .statement ts).isSome) = some true := by
  decide +kernel
example : (lexDoc demoU (str! "foo <- qux[baz]")).map (fun ts => (parseAs .statement ts).isSome) = some true := by
  decide +kernel
example : (lexDoc demoU (str! "foo <- exists baz[bar]")).map (fun ts => (parseAs .statement ts).isSome) = some true := by
  decide +kernel
example : (lexDoc demoU (str! "foo[bar] := qux")).map (fun ts => (parseAs .statement ts).isSome) = some true := by
  decide +kernel
example : (lexDoc demoU (str! "delete foo[bar]")).map (fun ts => (parseAs .statement ts).isSome) = some true := by
  decide +kernel
example : (lexDoc demoU (str! "accept")).map (fun ts => (parseAs .statement ts).isSome) = some true := by
  decide +kernel
example : (lexDoc demoU (str! "send foo")).map (fun ts => (parseAs .statement ts).isSome) = some true := by
  decide +kernel
example : (lexDoc demoU (str! "event foo")).map (fun ts => (parseAs .statement ts).isSome) = some true := by
  decide +kernel
example : (lexDoc demoU (str! "throw")).map (fun ts => (parseAs .statement ts).isSome) = some true := by
  decide +kernel
example : (lexDoc demoU (str! "match foo with | False => True | _ => False end")).map (fun ts => (parseAs .statement ts).isSome) = some true := by
  decide +kernel
example : (lexDoc demoU (str! "match foo with | _ => value end")).map (fun ts => (parseAs .statement ts).isSome) = some true := by
  decide +kernel
example : (lexDoc demoU (str! "Foo bar baz")).map (fun ts => (parseAs .statement ts).isSome) = some true := by
  decide +kernel
example : (lexDoc demoU (str! "forall foo Event")).map (fun ts => (parseAs .statement ts).isSome) = some true := by
  decide +kernel
example : (lexDoc demoU (str! "foo < bar")).map (fun ts => (parseAs .statement ts).isSome) = some false := by
  decide +kernel
example : (lexDoc demoU (str! "42 = foo")).map (fun ts => (parseAs .statement ts).isSome) = some false := by
  decide +kernel
example : (lexDoc demoU (str! "&Event")).map (fun ts => (parseAs .statement ts).isSome) = some false := by
  decide +kernel
example : (lexDoc demoU (str! "foo[] <- bar")).map (fun ts => (parseAs .statement ts).isSome) = some false := by
  decide +kernel
example : (lexDoc demoU (str! "foo <- exists")).map (fun ts => (parseAs .statement ts).isSome) = some false := by
  decide +kernel
example : (lexDoc demoU (str! "foo[] := bar")).map (fun ts => (parseAs .statement ts).isSome) = some false := by
  decide +kernel
example : (lexDoc demoU (str! "foo := qux[bar][baz]")).map (fun ts => (parseAs .statement ts).isSome) = some false := by
  decide +kernel
example : (lexDoc demoU (str! "foo.delete[bar]")).map (fun ts => (parseAs .statement ts).isSome) = some false := by
  decide +kernel
example : (lexDoc demoU (str! "send")).map (fun ts => (parseAs .statement ts).isSome) = some false := by
  decide +kernel
example : (lexDoc demoU (str! "event")).map (fun ts => (parseAs .statement ts).isSome) = some false := by
  decide +kernel
example : (lexDoc demoU (str! "match with _ => 42 end")).map (fun ts => (parseAs .statement ts).isSome) = some false := by
  decide +kernel
example : (lexDoc demoU (str! "forall")).map (fun ts => (parseAs .statement ts).isSome) = some false := by
  decide +kernel
example : (lexDoc demoU (str! "(foo bar)")).map (fun ts => (parseAs .bcFetchArgs ts).isSome) = some true := by
  decide +kernel
example : (lexDoc demoU (str! "(x)")).map (fun ts => (parseAs .bcFetchArgs ts).isSome) = some true := by
  decide +kernel
example : (lexDoc demoU (str! "(y z a)")).map (fun ts => (parseAs .bcFetchArgs ts).isSome) = some true := by
  decide +kernel
example : (lexDoc demoU (str! "()")).map (fun ts => (parseAs .bcFetchArgs ts).isSome) = some false := by
  decide +kernel
example : (lexDoc demoU (str! "(123)")).map (fun ts => (parseAs .bcFetchArgs ts).isSome) = some false := by
  decide +kernel
example : (lexDoc demoU (str! "(foo, 123)")).map (fun ts => (parseAs .bcFetchArgs ts).isSome) = some false := by
  decide +kernel
example : (lexDoc demoU (str! "foo, bar")).map (fun ts => (parseAs .bcFetchArgs ts).isSome) = some false := by
  decide +kernel
example : (lexDoc demoU (str! "(foo; bar)")).map (fun ts => (parseAs .bcFetchArgs ts).isSome) = some false := by
  decide +kernel
example : (lexDoc demoU (str! "foo")).map (fun ts => (parseAs .bcFetchArgs ts).isSome) = some false := by
  decide +kernel
example : (lexDoc demoU (str! "x <- y; z := a")).map (fun ts => (parseAs .stmtBlock ts).isSome) = some true := by
  decide +kernel
example : (lexDoc demoU (str! "accept")).map (fun ts => (parseAs .stmtBlock ts).isSome) = some true := by
  decide +kernel
example : (lexDoc demoU (str! "send x")).map (fun ts => (parseAs .stmtBlock ts).isSome) = some true := by
  decide +kernel
example : (lexDoc demoU (str! "event myEvent")).map (fun ts => (parseAs .stmtBlock ts).isSome) = some true := by
  decide +kernel
example : (lexDoc demoU (str! "match x with | _ => accept end")).map (fun ts => (parseAs .stmtBlock ts).isSome) = some true := by
  decide +kernel
example : (lexDoc demoU (str! "match x with | _ => y <- z end")).map (fun ts => (parseAs .stmtBlock ts).isSome) = some true := by
  decide +kernel
example : (lexDoc demoU (str! "MyComponent y")).map (fun ts => (parseAs .stmtBlock ts).isSome) = some true := by
  decide +kernel
example : (lexDoc demoU (str! "MyComponent y; forall foo Event ; match x with | _ => y <- z end")).map (fun ts => (parseAs .stmtBlock ts).isSome) = some true := by
  decide +kernel
example : (lexDoc demoU (str! "x < y")).map (fun ts => (parseAs .stmtBlock ts).isSome) = some false := by
  decide +kernel
example : (lexDoc demoU (str! "x <-")).map (fun ts => (parseAs .stmtBlock ts).isSome) = some false := by
  decide +kernel
example : (lexDoc demoU (str! "accept event")).map (fun ts => (parseAs .stmtBlock ts).isSome) = some false := by
  decide +kernel
example : (lexDoc demoU (str! "send")).map (fun ts => (parseAs .stmtBlock ts).isSome) = some false := by
  decide +kernel
example : (lexDoc demoU (str! "match x with _ => accept end")).map (fun ts => (parseAs .stmtBlock ts).isSome) = some false := by
  decide +kernel
example : (lexDoc demoU (str! "MyComponent X")).map (fun ts => (parseAs .stmtBlock ts).isSome) = some false := by
  decide +kernel
example : (lexDoc demoU (str! "MyComponent y forall x")).map (fun ts => (parseAs .stmtBlock ts).isSome) = some false := by
  decide +kernel
example : (lexDoc demoU (str! "foo: Uint32")).map (fun ts => (parseAs .paramPair ts).isSome) = some true := by
  decide +kernel
example : (lexDoc demoU (str! "bar: Bool")).map (fun ts => (parseAs .paramPair ts).isSome) = some true := by
  decide +kernel
example : (lexDoc demoU (str! "baz: Address")).map (fun ts => (parseAs .paramPair ts).isSome) = some true := by
  decide +kernel
example : (lexDoc demoU (str! "qux: Map Uint32 Bool")).map (fun ts => (parseAs .paramPair ts).isSome) = some true := by
  decide +kernel
example : (lexDoc demoU (str! "foo Uint32")).map (fun ts => (parseAs .paramPair ts).isSome) = some false := by
  decide +kernel
example : (lexDoc demoU (str! "foo")).map (fun ts => (parseAs .paramPair ts).isSome) = some false := by
  decide +kernel
example : (lexDoc demoU (str! "123: Uint32")).map (fun ts => (parseAs .paramPair ts).isSome) = some false := by
  decide +kernel
example : (lexDoc demoU (str! "foo: bar: Uint32")).map (fun ts => (parseAs .paramPair ts).isSome) = some false := by
  decide +kernel
example : (lexDoc demoU (str! "foo: uint32")).map (fun ts => (parseAs .paramPair ts).isSome) = some false := by
  decide +kernel
example : (lexDoc demoU (str! "foo: mapUint32, Bool")).map (fun ts => (parseAs .paramPair ts).isSome) = some false := by
  decide +kernel
example : (lexDoc demoU (str! "transition myTransition(param1: Uint32, param2: Uint32) end")).map (fun ts => (parseAs .compDef ts).isSome) = some true := by
  decide +kernel
example : (lexDoc demoU (str! "procedure myProcedure(param: Uint32) end")).map (fun ts => (parseAs .compDef ts).isSome) = some true := by
  decide +kernel
example : (lexDoc demoU (str! "procedure myProcedure(param: Map ByStr32 ByStr32) param end")).map (fun ts => (parseAs .compDef ts).isSome) = some true := by
  decide +kernel
example : (lexDoc demoU (str! "transition myTransition(param: Bool) match param with | False => True | _ => False end end")).map (fun ts => (parseAs .compDef ts).isSome) = some true := by
  decide +kernel
example : (lexDoc demoU (str! "transition myTransition")).map (fun ts => (parseAs .compDef ts).isSome) = some false := by
  decide +kernel
example : (lexDoc demoU (str! "procedure myProcedure() returns Uint32")).map (fun ts => (parseAs .compDef ts).isSome) = some false := by
  decide +kernel
example : (lexDoc demoU (str! "procedure myProcedure(param: Uint32) returns Uint32 {")).map (fun ts => (parseAs .compDef ts).isSome) = some false := by
  decide +kernel
example : (lexDoc demoU (str! "transition myTransition() { state_1 -> state_2 }")).map (fun ts => (parseAs .compDef ts).isSome) = some false := by
  decide +kernel
example : (lexDoc demoU (str! "transition myTransition(param1: Uint32 param2: Uint32)")).map (fun ts => (parseAs .compDef ts).isSome) = some false := by
  decide +kernel
example : (lexDoc demoU (str! "procedure foo() end")).map (fun ts => (parseAs .procDef ts).isSome) = some true := by
  decide +kernel
example : (lexDoc demoU (str! "procedure bar(x: Int32, y: Uint32) baz x y end")).map (fun ts => (parseAs .procDef ts).isSome) = some true := by
  decide +kernel
example : (lexDoc demoU (str! "procedure 42() { }")).map (fun ts => (parseAs .procDef ts).isSome) = some false := by
  decide +kernel
example : (lexDoc demoU (str! "procedure foo(x, y) { }")).map (fun ts => (parseAs .procDef ts).isSome) = some false := by
  decide +kernel

end Verif
