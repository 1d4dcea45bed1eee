import Verif.Props.Parser1
/-
Generated by tools/conformance.py from /repo/tests/parser_tests.rs: the cases of the project's own tests, evaluated
on the model.  (Validation of the model, not proofs of properties.)
-/
namespace Verif

example : (lexDoc demoU (str! "ByStr1234")).map (fun ts => (parseAs .byteString ts).isSome) = some true := by
  decide +kernel
example : (lexDoc demoU (str! "ByStr11")).map (fun ts => (parseAs .byteString ts).isSome) = some true := by
  decide +kernel
example : (lexDoc demoU (str! "ByStr0")).map (fun ts => (parseAs .byteString ts).isSome) = some true := by
  decide +kernel
example : (lexDoc demoU (str! "ByStr 3")).map (fun ts => (parseAs .byteString ts).isSome) = some false := by
  decide +kernel
example : (lexDoc demoU (str! "ByStr 11")).map (fun ts => (parseAs .byteString ts).isSome) = some false := by
  decide +kernel
example : (lexDoc demoU (str! "ByStr 0")).map (fun ts => (parseAs .byteString ts).isSome) = some false := by
  decide +kernel
example : (lexDoc demoU (str! "ByStr")).map (fun ts => (parseAs .byteString ts).isSome) = some false := by
  decide +kernel
example : (lexDoc demoU (str! "Event")).map (fun ts => (parseAs .typeName ts).isSome) = some true := by
  decide +kernel
example : (lexDoc demoU (str! "Foo")).map (fun ts => (parseAs .typeName ts).isSome) = some true := by
  decide +kernel
example : (lexDoc demoU (str! "ByStr42")).map (fun ts => (parseAs .typeName ts).isSome) = some true := by
  decide +kernel
example : (lexDoc demoU (str! "bystr")).map (fun ts => (parseAs .typeName ts).isSome) = some false := by
  decide +kernel
example : (lexDoc demoU (str! "_foo")).map (fun ts => (parseAs .typeName ts).isSome) = some false := by
  decide +kernel
example : (lexDoc demoU (str! "ByStr 0")).map (fun ts => (parseAs .typeName ts).isSome) = some false := by
  decide +kernel
example : (lexDoc demoU (str! "Type With Spaces")).map (fun ts => (parseAs .typeName ts).isSome) = some false := by
  decide +kernel
example : (lexDoc demoU (str! "Event")).map (fun ts => (parseAs .importedName ts).isSome) = some true := by
  decide +kernel
example : (lexDoc demoU (str! "Foo")).map (fun ts => (parseAs .importedName ts).isSome) = some true := by
  decide +kernel
example : (lexDoc demoU (str! "ByStr42")).map (fun ts => (parseAs .importedName ts).isSome) = some true := by
  decide +kernel
example : (lexDoc demoU (str! "Event as Alias")).map (fun ts => (parseAs .importedName ts).isSome) = some true := by
  decide +kernel
example : (lexDoc demoU (str! "Foo as Alias")).map (fun ts => (parseAs .importedName ts).isSome) = some true := by
  decide +kernel
example : (lexDoc demoU (str! "ByStr42 as Alias")).map (fun ts => (parseAs .importedName ts).isSome) = some true := by
  decide +kernel
example : (lexDoc demoU (str! "foo")).map (fun ts => (parseAs .importedName ts).isSome) = some false := by
  decide +kernel
example : (lexDoc demoU (str! "Type With Spaces")).map (fun ts => (parseAs .importedName ts).isSome) = some false := by
  decide +kernel
example : (lexDoc demoU (str! "Foo As Alias")).map (fun ts => (parseAs .importedName ts).isSome) = some false := by
  decide +kernel
example : (lexDoc demoU (str! "Event as")).map (fun ts => (parseAs .importedName ts).isSome) = some false := by
  decide +kernel
example : (lexDoc demoU (str! "import Foo")).map (fun ts => (parseAs .importDecls ts).isSome) = some true := by
  decide +kernel
example : (lexDoc demoU (str! "import Event import ByStr42")).map (fun ts => (parseAs .importDecls ts).isSome) = some true := by
  decide +kernel
example : (lexDoc demoU (str! "import Foo as Bar")).map (fun ts => (parseAs .importDecls ts).isSome) = some true := by
  decide +kernel
example : (lexDoc demoU (str! "foo")).map (fun ts => (parseAs .importDecls ts).isSome) = some false := by
  decide +kernel
example : (lexDoc demoU (str! "import")).map (fun ts => (parseAs .importDecls ts).isSome) = some false := by
  decide +kernel
example : (lexDoc demoU (str! "import Foo import")).map (fun ts => (parseAs .importDecls ts).isSome) = some false := by
  decide +kernel
example : (lexDoc demoU (str! "Event")).map (fun ts => (parseAs .metaId ts).isSome) = some true := by
  decide +kernel
example : (lexDoc demoU (str! "Foo.Bar")).map (fun ts => (parseAs .metaId ts).isSome) = some true := by
  decide +kernel
example : (lexDoc demoU (str! "ABCD.Event")).map (fun ts => (parseAs .metaId ts).isSome) = some true := by
  decide +kernel
example : (lexDoc demoU (str! "0x1234.Event")).map (fun ts => (parseAs .metaId ts).isSome) = some true := by
  decide +kernel
example : (lexDoc demoU (str! "ByStr")).map (fun ts => (parseAs .metaId ts).isSome) = some true := by
  decide +kernel
example : (lexDoc demoU (str! "_foo")).map (fun ts => (parseAs .metaId ts).isSome) = some false := by
  decide +kernel
example : (lexDoc demoU (str! "Type With Spaces")).map (fun ts => (parseAs .metaId ts).isSome) = some false := by
  decide +kernel
example : (lexDoc demoU (str! "Foo .. Bar")).map (fun ts => (parseAs .metaId ts).isSome) = some false := by
  decide +kernel
example : (lexDoc demoU (str! "0x1234 - Bar")).map (fun ts => (parseAs .metaId ts).isSome) = some false := by
  decide +kernel
example : (lexDoc demoU (str! "Foo.")).map (fun ts => (parseAs .metaId ts).isSome) = some false := by
  decide +kernel
example : (lexDoc demoU (str! "0x1234.42")).map (fun ts => (parseAs .metaId ts).isSome) = some false := by
  decide +kernel
example : (lexDoc demoU (str! "foo")).map (fun ts => (parseAs .varId ts).isSome) = some true := by
  decide +kernel
example : (lexDoc demoU (str! "_bar")).map (fun ts => (parseAs .varId ts).isSome) = some true := by
  decide +kernel
example : (lexDoc demoU (str! "Foo.bar")).map (fun ts => (parseAs .varId ts).isSome) = some true := by
  decide +kernel
example : (lexDoc demoU (str! "ByStr42.baz")).map (fun ts => (parseAs .varId ts).isSome) = some true := by
  decide +kernel
example : (lexDoc demoU (str! "Event.qux")).map (fun ts => (parseAs .varId ts).isSome) = some true := by
  decide +kernel
example : (lexDoc demoU (str! "42")).map (fun ts => (parseAs .varId ts).isSome) = some false := by
  decide +kernel
example : (lexDoc demoU (str! "_")).map (fun ts => (parseAs .varId ts).isSome) = some false := by
  decide +kernel
example : (lexDoc demoU (str! "Type With Spaces.baz")).map (fun ts => (parseAs .varId ts).isSome) = some false := by
  decide +kernel
example : (lexDoc demoU (str! "Event42.Bar")).map (fun ts => (parseAs .varId ts).isSome) = some false := by
  decide +kernel
example : (lexDoc demoU (str! "Foo.")).map (fun ts => (parseAs .varId ts).isSome) = some false := by
  decide +kernel
example : (lexDoc demoU (str! "( )")).map (fun ts => (parseAs .builtinArgs ts).isSome) = some true := by
  decide +kernel
example : (lexDoc demoU (str! "foo")).map (fun ts => (parseAs .builtinArgs ts).isSome) = some true := by
  decide +kernel
example : (lexDoc demoU (str! "foo bar baz")).map (fun ts => (parseAs .builtinArgs ts).isSome) = some true := by
  decide +kernel
example : (lexDoc demoU (str! "Event.qux")).map (fun ts => (parseAs .builtinArgs ts).isSome) = some true := by
  decide +kernel
example : (lexDoc demoU (str! "42")).map (fun ts => (parseAs .builtinArgs ts).isSome) = some false := by
  decide +kernel
example : (lexDoc demoU (str! "_")).map (fun ts => (parseAs .builtinArgs ts).isSome) = some false := by
  decide +kernel
example : (lexDoc demoU (str! "Type With Spaces.baz")).map (fun ts => (parseAs .builtinArgs ts).isSome) = some false := by
  decide +kernel
example : (lexDoc demoU (str! "Event42.Bar")).map (fun ts => (parseAs .builtinArgs ts).isSome) = some false := by
  decide +kernel
example : (lexDoc demoU (str! "Foo.")).map (fun ts => (parseAs .builtinArgs ts).isSome) = some false := by
  decide +kernel
example : (lexDoc demoU (str! "Uint32")).map (fun ts => (parseAs .scillaType ts).isSome) = some true := by
  decide +kernel
example : (lexDoc demoU (str! "Foo(Bar)")).map (fun ts => (parseAs .scillaType ts).isSome) = some true := by
  decide +kernel
example : (lexDoc demoU (str! "Map Uint32 String")).map (fun ts => (parseAs .scillaType ts).isSome) = some true := by
  decide +kernel
example : (lexDoc demoU (str! "Uint32 -> Bool")).map (fun ts => (parseAs .scillaType ts).isSome) = some true := by
  decide +kernel
example : (lexDoc demoU (str! "(Uint32)")).map (fun ts => (parseAs .scillaType ts).isSome) = some true := by
  decide +kernel
example : (lexDoc demoU (str! "Address with end")).map (fun ts => (parseAs .scillaType ts).isSome) = some true := by
  decide +kernel
example : (lexDoc demoU (str! "forall 'A. forall 'B. ( 'B -> 'A -> 'B) -> 'B -> List 'A -> 'B")).map (fun ts => (parseAs .scillaType ts).isSome) = some true := by
  decide +kernel
example : (lexDoc demoU (str! "T")).map (fun ts => (parseAs .scillaType ts).isSome) = some true := by
  decide +kernel
example : (lexDoc demoU (str! "Map")).map (fun ts => (parseAs .scillaType ts).isSome) = some false := by
  decide +kernel
example : (lexDoc demoU (str! "Uint32 ->")).map (fun ts => (parseAs .scillaType ts).isSome) = some false := by
  decide +kernel
example : (lexDoc demoU (str! "-> Bool")).map (fun ts => (parseAs .scillaType ts).isSome) = some false := by
  decide +kernel
example : (lexDoc demoU (str! "address with")).map (fun ts => (parseAs .scillaType ts).isSome) = some false := by
  decide +kernel
example : (lexDoc demoU (str! "address with Foo end")).map (fun ts => (parseAs .scillaType ts).isSome) = some false := by
  decide +kernel
example : (lexDoc demoU (str! "forall T. Map(T, Uint32)")).map (fun ts => (parseAs .scillaType ts).isSome) = some false := by
  decide +kernel
example : (lexDoc demoU (str! "Foo(Bar")).map (fun ts => (parseAs .scillaType ts).isSome) = some false := by
  decide +kernel
example : (lexDoc demoU (str! "Foo with end")).map (fun ts => (parseAs .addressType ts).isSome) = some true := by
  decide +kernel
example : (lexDoc demoU (str! "ByStr42 with end")).map (fun ts => (parseAs .addressType ts).isSome) = some true := by
  decide +kernel
example : (lexDoc demoU (str! "Event with end")).map (fun ts => (parseAs .addressType ts).isSome) = some true := by
  decide +kernel
example : (lexDoc demoU (str! "Foo with contract field field1: Uint32, field field2: Uint32 end")).map (fun ts => (parseAs .addressType ts).isSome) = some true := by
  decide +kernel
example : (lexDoc demoU (str! "ByStr42 with contract field field1: Uint32 end")).map (fun ts => (parseAs .addressType ts).isSome) = some true := by
  decide +kernel
example : (lexDoc demoU (str! "Event with contract end")).map (fun ts => (parseAs .addressType ts).isSome) = some true := by
  decide +kernel
example : (lexDoc demoU (str! "Foo with library end")).map (fun ts => (parseAs .addressType ts).isSome) = some true := by
  decide +kernel
example : (lexDoc demoU (str! "ByStr42 with library end")).map (fun ts => (parseAs .addressType ts).isSome) = some true := by
  decide +kernel
example : (lexDoc demoU (str! "Event with library end")).map (fun ts => (parseAs .addressType ts).isSome) = some true := by
  decide +kernel
example : (lexDoc demoU (str! "Foo with _foo end")).map (fun ts => (parseAs .addressType ts).isSome) = some true := by
  decide +kernel
example : (lexDoc demoU (str! "ByStr42 with _foo end")).map (fun ts => (parseAs .addressType ts).isSome) = some true := by
  decide +kernel
example : (lexDoc demoU (str! "Event with _foo end")).map (fun ts => (parseAs .addressType ts).isSome) = some true := by
  decide +kernel
example : (lexDoc demoU (str! "Foo with contract field field1: Uint32 end")).map (fun ts => (parseAs .addressType ts).isSome) = some true := by
  decide +kernel
example : (lexDoc demoU (str! "ByStr42 with contract field field1: Uint32, field field2: Uint32, field field3: Uint32 end")).map (fun ts => (parseAs .addressType ts).isSome) = some true := by
  decide +kernel
example : (lexDoc demoU (str! "Event with contract field field1: Uint32 end")).map (fun ts => (parseAs .addressType ts).isSome) = some true := by
  decide +kernel
example : (lexDoc demoU (str! "foo with end")).map (fun ts => (parseAs .addressType ts).isSome) = some false := by
  decide +kernel
example : (lexDoc demoU (str! "Foo with ")).map (fun ts => (parseAs .addressType ts).isSome) = some false := by
  decide +kernel
example : (lexDoc demoU (str! "Foo with foo bar: Uint32 end")).map (fun ts => (parseAs .addressType ts).isSome) = some false := by
  decide +kernel
example : (lexDoc demoU (str! "Foo with contract field1: Uint32, field2: Uint32")).map (fun ts => (parseAs .addressType ts).isSome) = some false := by
  decide +kernel
example : (lexDoc demoU (str! "Foo with contract, end")).map (fun ts => (parseAs .addressType ts).isSome) = some false := by
  decide +kernel
example : (lexDoc demoU (str! "Foo")).map (fun ts => (parseAs .mapKey ts).isSome) = some true := by
  decide +kernel
example : (lexDoc demoU (str! "(Foo)")).map (fun ts => (parseAs .mapKey ts).isSome) = some true := by
  decide +kernel
example : (lexDoc demoU (str! "Foo with end")).map (fun ts => (parseAs .mapKey ts).isSome) = some true := by
  decide +kernel
example : (lexDoc demoU (str! "(Foo with end)")).map (fun ts => (parseAs .mapKey ts).isSome) = some true := by
  decide +kernel
example : (lexDoc demoU (str! "(ByStr42 with contract end)")).map (fun ts => (parseAs .mapKey ts).isSome) = some true := by
  decide +kernel
example : (lexDoc demoU (str! "Foo with library end")).map (fun ts => (parseAs .mapKey ts).isSome) = some true := by
  decide +kernel
example : (lexDoc demoU (str! "foo")).map (fun ts => (parseAs .mapKey ts).isSome) = some false := by
  decide +kernel
example : (lexDoc demoU (str! "Foo()")).map (fun ts => (parseAs .mapKey ts).isSome) = some false := by
  decide +kernel
example : (lexDoc demoU (str! "(Foo with bar end)")).map (fun ts => (parseAs .mapKey ts).isSome) = some false := by
  decide +kernel
example : (lexDoc demoU (str! "(42)")).map (fun ts => (parseAs .mapKey ts).isSome) = some false := by
  decide +kernel
example : (lexDoc demoU (str! "Uint32")).map (fun ts => (parseAs .mapValue ts).isSome) = some true := by
  decide +kernel
example : (lexDoc demoU (str! "Map Foo Bar")).map (fun ts => (parseAs .mapValue ts).isSome) = some true := by
  decide +kernel
example : (lexDoc demoU (str! "(Uint32)")).map (fun ts => (parseAs .mapValue ts).isSome) = some true := by
  decide +kernel
example : (lexDoc demoU (str! "Address with end")).map (fun ts => (parseAs .mapValue ts).isSome) = some true := by
  decide +kernel
example : (lexDoc demoU (str! "Foo with contract field field1: Uint32 end")).map (fun ts => (parseAs .mapValue ts).isSome) = some true := by
  decide +kernel

end Verif
