import Verif.Props.Parser1
/-
Generated by tools/conformance.py from /repo/tests/parser_tests.rs: the cases of the project's own tests, evaluated
on the model.  (Validation of the model, not proofs of properties.)
-/
namespace Verif

example : (lexDoc demoU (str! "foo")).map (fun ts => (parseAs .mapValue ts).isSome) = some false := by
  decide +kernel
example : (lexDoc demoU (str! "bystr1")).map (fun ts => (parseAs .mapValue ts).isSome) = some false := by
  decide +kernel
example : (lexDoc demoU (str! "event")).map (fun ts => (parseAs .mapValue ts).isSome) = some false := by
  decide +kernel
example : (lexDoc demoU (str! "map(foo, bar)")).map (fun ts => (parseAs .mapValue ts).isSome) = some false := by
  decide +kernel
example : (lexDoc demoU (str! "(42)")).map (fun ts => (parseAs .mapValue ts).isSome) = some false := by
  decide +kernel
example : (lexDoc demoU (str! "address with")).map (fun ts => (parseAs .mapValue ts).isSome) = some false := by
  decide +kernel
example : (lexDoc demoU (str! "foo with foo bar")).map (fun ts => (parseAs .mapValue ts).isSome) = some false := by
  decide +kernel
example : (lexDoc demoU (str! "(Uint32)")).map (fun ts => (parseAs .mapValueArgs ts).isSome) = some true := by
  decide +kernel
example : (lexDoc demoU (str! "Foo")).map (fun ts => (parseAs .mapValueArgs ts).isSome) = some true := by
  decide +kernel
example : (lexDoc demoU (str! "Map Foo Bar")).map (fun ts => (parseAs .mapValueArgs ts).isSome) = some true := by
  decide +kernel
example : (lexDoc demoU (str! "Foo Bar")).map (fun ts => (parseAs .mapValueArgs ts).isSome) = some false := by
  decide +kernel
example : (lexDoc demoU (str! "map(foo, bar)")).map (fun ts => (parseAs .mapValueArgs ts).isSome) = some false := by
  decide +kernel
example : (lexDoc demoU (str! "(42)()")).map (fun ts => (parseAs .mapValueArgs ts).isSome) = some false := by
  decide +kernel
example : (lexDoc demoU (str! "(Uint32")).map (fun ts => (parseAs .mapValueArgs ts).isSome) = some false := by
  decide +kernel
example : (lexDoc demoU (str! "Map(Foo)")).map (fun ts => (parseAs .mapValueArgs ts).isSome) = some false := by
  decide +kernel
example : (lexDoc demoU (str! "Map(Foo, Bar)")).map (fun ts => (parseAs .mapValueArgs ts).isSome) = some false := by
  decide +kernel
example : (lexDoc demoU (str! "Foo")).map (fun ts => (parseAs .typeArg ts).isSome) = some true := by
  decide +kernel
example : (lexDoc demoU (str! "(Bar)")).map (fun ts => (parseAs .typeArg ts).isSome) = some true := by
  decide +kernel
example : (lexDoc demoU (str! "Uint32")).map (fun ts => (parseAs .typeArg ts).isSome) = some true := by
  decide +kernel
example : (lexDoc demoU (str! "'A")).map (fun ts => (parseAs .typeArg ts).isSome) = some true := by
  decide +kernel
example : (lexDoc demoU (str! "(Uint32)")).map (fun ts => (parseAs .typeArg ts).isSome) = some true := by
  decide +kernel
example : (lexDoc demoU (str! "Address with contract field field1: Uint32, field field2: Uint32 end")).map (fun ts => (parseAs .typeArg ts).isSome) = some true := by
  decide +kernel
example : (lexDoc demoU (str! "Map Uint32 Bool")).map (fun ts => (parseAs .typeArg ts).isSome) = some true := by
  decide +kernel
example : (lexDoc demoU (str! "foo bar")).map (fun ts => (parseAs .typeArg ts).isSome) = some false := by
  decide +kernel
example : (lexDoc demoU (str! "123")).map (fun ts => (parseAs .typeArg ts).isSome) = some false := by
  decide +kernel
example : (lexDoc demoU (str! "foo.bar")).map (fun ts => (parseAs .typeArg ts).isSome) = some false := by
  decide +kernel
example : (lexDoc demoU (str! "mapUint32Uint32")).map (fun ts => (parseAs .typeArg ts).isSome) = some false := by
  decide +kernel
example : (lexDoc demoU (str! "'_A")).map (fun ts => (parseAs .typeArg ts).isSome) = some false := by
  decide +kernel
example : (lexDoc demoU (str! "(map(Int32, String))")).map (fun ts => (parseAs .typeArg ts).isSome) = some false := by
  decide +kernel
example : (lexDoc demoU (str! "Foo.bar")).map (fun ts => (parseAs .typeArg ts).isSome) = some false := by
  decide +kernel
example : (lexDoc demoU (str! "Map(Int32, String, Bool)")).map (fun ts => (parseAs .typeArg ts).isSome) = some false := by
  decide +kernel
example : (lexDoc demoU (str! "let x = Int32 42 in X")).map (fun ts => (parseAs .fullExpr ts).isSome) = some true := by
  decide +kernel
example : (lexDoc demoU (str! "let x: Int32 = Int32 42 in X")).map (fun ts => (parseAs .fullExpr ts).isSome) = some true := by
  decide +kernel
example : (lexDoc demoU (str! "let x = Uint128 42 in builtin lt x x")).map (fun ts => (parseAs .fullExpr ts).isSome) = some true := by
  decide +kernel
example : (lexDoc demoU (str! "fun (x: Int32) => builtin lt x x")).map (fun ts => (parseAs .fullExpr ts).isSome) = some true := by
  decide +kernel
example : (lexDoc demoU (str! "fun (x: Int32) => foo")).map (fun ts => (parseAs .fullExpr ts).isSome) = some true := by
  decide +kernel
example : (lexDoc demoU (str! "foo")).map (fun ts => (parseAs .fullExpr ts).isSome) = some true := by
  decide +kernel
example : (lexDoc demoU (str! "foo bar baz")).map (fun ts => (parseAs .fullExpr ts).isSome) = some true := by
  decide +kernel
example : (lexDoc demoU (str! "UInt32 42")).map (fun ts => (parseAs .fullExpr ts).isSome) = some true := by
  decide +kernel
example : (lexDoc demoU (str! "true")).map (fun ts => (parseAs .fullExpr ts).isSome) = some true := by
  decide +kernel
example : (lexDoc demoU (str! "builtin blabla a b")).map (fun ts => (parseAs .fullExpr ts).isSome) = some true := by
  decide +kernel
example : (lexDoc demoU (str! "{ foo: UInt32 42; bar: Int64 23 }")).map (fun ts => (parseAs .fullExpr ts).isSome) = some true := by
  decide +kernel
example : (lexDoc demoU (str! "match foo with \n| False => True \n| _ => False \nend")).map (fun ts => (parseAs .fullExpr ts).isSome) = some true := by
  decide +kernel
example : (lexDoc demoU (str! "Foo")).map (fun ts => (parseAs .fullExpr ts).isSome) = some true := by
  decide +kernel
example : (lexDoc demoU (str! "Foo  m  n")).map (fun ts => (parseAs .fullExpr ts).isSome) = some true := by
  decide +kernel
example : (lexDoc demoU (str! "tfun 'T => fun (x: 'T) => x")).map (fun ts => (parseAs .fullExpr ts).isSome) = some true := by
  decide +kernel
example : (lexDoc demoU (str! "@foo Type")).map (fun ts => (parseAs .fullExpr ts).isSome) = some true := by
  decide +kernel
example : (lexDoc demoU (str! "let 42 = x in x")).map (fun ts => (parseAs .fullExpr ts).isSome) = some false := by
  decide +kernel
example : (lexDoc demoU (str! "let x: = 42 in x")).map (fun ts => (parseAs .fullExpr ts).isSome) = some false := by
  decide +kernel
example : (lexDoc demoU (str! "fun x => x + 1")).map (fun ts => (parseAs .fullExpr ts).isSome) = some false := by
  decide +kernel
example : (lexDoc demoU (str! "42foo")).map (fun ts => (parseAs .fullExpr ts).isSome) = some false := by
  decide +kernel
example : (lexDoc demoU (str! "42.foo")).map (fun ts => (parseAs .fullExpr ts).isSome) = some false := by
  decide +kernel
example : (lexDoc demoU (str! "42.23")).map (fun ts => (parseAs .fullExpr ts).isSome) = some false := by
  decide +kernel
example : (lexDoc demoU (str! "builtin noop")).map (fun ts => (parseAs .fullExpr ts).isSome) = some false := by
  decide +kernel
example : (lexDoc demoU (str! "{ foo = 42; bar: 23 }")).map (fun ts => (parseAs .fullExpr ts).isSome) = some false := by
  decide +kernel
example : (lexDoc demoU (str! "{ foo: 42, bar = 23 }")).map (fun ts => (parseAs .fullExpr ts).isSome) = some false := by
  decide +kernel
example : (lexDoc demoU (str! "{ foo = 42, }")).map (fun ts => (parseAs .fullExpr ts).isSome) = some false := by
  decide +kernel
example : (lexDoc demoU (str! "match foo with | 42 => true end")).map (fun ts => (parseAs .fullExpr ts).isSome) = some false := by
  decide +kernel
example : (lexDoc demoU (str! "Foo()")).map (fun ts => (parseAs .fullExpr ts).isSome) = some false := by
  decide +kernel
example : (lexDoc demoU (str! "tfun T => Foo")).map (fun ts => (parseAs .fullExpr ts).isSome) = some false := by
  decide +kernel
example : (lexDoc demoU (str! "@foo()")).map (fun ts => (parseAs .fullExpr ts).isSome) = some false := by
  decide +kernel
example : (lexDoc demoU (str! "foo")).map (fun ts => (parseAs .atomic ts).isSome) = some true := by
  decide +kernel
example : (lexDoc demoU (str! "Uint32 42")).map (fun ts => (parseAs .atomic ts).isSome) = some true := by
  decide +kernel
example : (lexDoc demoU (str! "0x123abc")).map (fun ts => (parseAs .atomic ts).isSome) = some true := by
  decide +kernel
example : (lexDoc demoU (str! "\"string\"")).map (fun ts => (parseAs .atomic ts).isSome) = some true := by
  decide +kernel
example : (lexDoc demoU (str! "(foo)")).map (fun ts => (parseAs .atomic ts).isSome) = some false := by
  decide +kernel
example : (lexDoc demoU (str! "42.0")).map (fun ts => (parseAs .atomic ts).isSome) = some false := by
  decide +kernel
example : (lexDoc demoU (str! "True")).map (fun ts => (parseAs .atomic ts).isSome) = some false := by
  decide +kernel
example : (lexDoc demoU (str! "foo")).map (fun ts => (parseAs .atomic ts).isSome) = some true := by
  decide +kernel
example : (lexDoc demoU (str! "Uint32 42")).map (fun ts => (parseAs .atomic ts).isSome) = some true := by
  decide +kernel
example : (lexDoc demoU (str! "0x123abc")).map (fun ts => (parseAs .atomic ts).isSome) = some true := by
  decide +kernel
example : (lexDoc demoU (str! "\"string\"")).map (fun ts => (parseAs .atomic ts).isSome) = some true := by
  decide +kernel
example : (lexDoc demoU (str! "(foo)")).map (fun ts => (parseAs .atomic ts).isSome) = some false := by
  decide +kernel
example : (lexDoc demoU (str! "42.0")).map (fun ts => (parseAs .atomic ts).isSome) = some false := by
  decide +kernel
example : (lexDoc demoU (str! "True")).map (fun ts => (parseAs .atomic ts).isSome) = some false := by
  decide +kernel
example : (lexDoc demoU (str! "[foo]")).map (fun ts => (parseAs .mapAccess ts).isSome) = some true := by
  decide +kernel
example : (lexDoc demoU (str! "[bar123]")).map (fun ts => (parseAs .mapAccess ts).isSome) = some true := by
  decide +kernel
example : (lexDoc demoU (str! "[_result]")).map (fun ts => (parseAs .mapAccess ts).isSome) = some true := by
  decide +kernel
example : (lexDoc demoU (str! "[0x0232]")).map (fun ts => (parseAs .mapAccess ts).isSome) = some false := by
  decide +kernel
example : (lexDoc demoU (str! "[\"xx\"]")).map (fun ts => (parseAs .mapAccess ts).isSome) = some false := by
  decide +kernel
example : (lexDoc demoU (str! "[Foo]")).map (fun ts => (parseAs .mapAccess ts).isSome) = some false := by
  decide +kernel
example : (lexDoc demoU (str! "[]")).map (fun ts => (parseAs .mapAccess ts).isSome) = some false := by
  decide +kernel
example : (lexDoc demoU (str! "[foo.bar]")).map (fun ts => (parseAs .mapAccess ts).isSome) = some false := by
  decide +kernel
example : (lexDoc demoU (str! "_")).map (fun ts => (parseAs .pattern ts).isSome) = some true := by
  decide +kernel
example : (lexDoc demoU (str! "foo")).map (fun ts => (parseAs .pattern ts).isSome) = some true := by
  decide +kernel
example : (lexDoc demoU (str! "Bar42")).map (fun ts => (parseAs .pattern ts).isSome) = some true := by
  decide +kernel
example : (lexDoc demoU (str! "Bar42 _")).map (fun ts => (parseAs .pattern ts).isSome) = some true := by
  decide +kernel
example : (lexDoc demoU (str! "Bar42 hello")).map (fun ts => (parseAs .pattern ts).isSome) = some true := by
  decide +kernel
example : (lexDoc demoU (str! "Bar42(_)")).map (fun ts => (parseAs .pattern ts).isSome) = some true := by
  decide +kernel
example : (lexDoc demoU (str! "Bar42(Foo)")).map (fun ts => (parseAs .pattern ts).isSome) = some true := by
  decide +kernel
example : (lexDoc demoU (str! "Bar42(Foo Bar)")).map (fun ts => (parseAs .pattern ts).isSome) = some true := by
  decide +kernel
example : (lexDoc demoU (str! "Bar42(ByStr42 Int32)")).map (fun ts => (parseAs .pattern ts).isSome) = some true := by
  decide +kernel
example : (lexDoc demoU (str! "Bar42(Foo.Bar Bar.Baz)")).map (fun ts => (parseAs .pattern ts).isSome) = some true := by
  decide +kernel
example : (lexDoc demoU (str! "_ _")).map (fun ts => (parseAs .pattern ts).isSome) = some false := by
  decide +kernel
example : (lexDoc demoU (str! "42Bar")).map (fun ts => (parseAs .pattern ts).isSome) = some false := by
  decide +kernel
example : (lexDoc demoU (str! "foo bar")).map (fun ts => (parseAs .pattern ts).isSome) = some false := by
  decide +kernel
example : (lexDoc demoU (str! "Foo42(, Bar)")).map (fun ts => (parseAs .pattern ts).isSome) = some false := by
  decide +kernel
example : (lexDoc demoU (str! "Foo42(Map, Bar)")).map (fun ts => (parseAs .pattern ts).isSome) = some false := by
  decide +kernel
example : (lexDoc demoU (str! "Bar42(Map ByStr42 Int32)")).map (fun ts => (parseAs .pattern ts).isSome) = some false := by
  decide +kernel
example : (lexDoc demoU (str! "_")).map (fun ts => (parseAs .argPattern ts).isSome) = some true := by
  decide +kernel
example : (lexDoc demoU (str! "foo")).map (fun ts => (parseAs .argPattern ts).isSome) = some true := by
  decide +kernel
example : (lexDoc demoU (str! "MyType")).map (fun ts => (parseAs .argPattern ts).isSome) = some true := by
  decide +kernel
example : (lexDoc demoU (str! "(baz)")).map (fun ts => (parseAs .argPattern ts).isSome) = some true := by
  decide +kernel
example : (lexDoc demoU (str! "(Bar42 _)")).map (fun ts => (parseAs .argPattern ts).isSome) = some true := by
  decide +kernel
example : (lexDoc demoU (str! "my_type")).map (fun ts => (parseAs .argPattern ts).isSome) = some true := by
  decide +kernel
example : (lexDoc demoU (str! "2bar")).map (fun ts => (parseAs .argPattern ts).isSome) = some false := by
  decide +kernel
example : (lexDoc demoU (str! "MyType()")).map (fun ts => (parseAs .argPattern ts).isSome) = some false := by
  decide +kernel
example : (lexDoc demoU (str! "(2bar)")).map (fun ts => (parseAs .argPattern ts).isSome) = some false := by
  decide +kernel
example : (lexDoc demoU (str! "| _ => Uint32 42")).map (fun ts => (parseAs .pmExprClause ts).isSome) = some true := by
  decide +kernel
example : (lexDoc demoU (str! "| Foo => Uint32 42")).map (fun ts => (parseAs .pmExprClause ts).isSome) = some true := by
  decide +kernel

end Verif
