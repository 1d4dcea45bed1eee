import Verif.Props.Parser1
/-
Generated by tools/conformance.py from /repo/tests/parser_tests.rs: the cases of the project's own tests, evaluated
on the model.  (Validation of the model, not proofs of properties.)
-/
namespace Verif

example : (lexDoc demoU (str! "procedure foo(x: Int32, y: Uint32)")).map (fun ts => (parseAs .procDef ts).isSome) = some false := by
  decide +kernel
example : (lexDoc demoU (str! "procedure foo(x: Int32, y: Uint32) foo x y")).map (fun ts => (parseAs .procDef ts).isSome) = some false := by
  decide +kernel
example : (lexDoc demoU (str! "procedure foo() {}")).map (fun ts => (parseAs .procDef ts).isSome) = some false := by
  decide +kernel
example : (lexDoc demoU (str! "transition foo()  bar end")).map (fun ts => (parseAs .transDef ts).isSome) = some true := by
  decide +kernel
example : (lexDoc demoU (str! "transition bar(x: Int32, y: Uint32) foo end")).map (fun ts => (parseAs .transDef ts).isSome) = some true := by
  decide +kernel
example : (lexDoc demoU (str! "transition qux(bar: Bool) bar end")).map (fun ts => (parseAs .transDef ts).isSome) = some true := by
  decide +kernel
example : (lexDoc demoU (str! "transition empty() end")).map (fun ts => (parseAs .transDef ts).isSome) = some true := by
  decide +kernel
example : (lexDoc demoU (str! "transition 123() { foo() }")).map (fun ts => (parseAs .transDef ts).isSome) = some false := by
  decide +kernel
example : (lexDoc demoU (str! "transition foo(bar) { foo() }")).map (fun ts => (parseAs .transDef ts).isSome) = some false := by
  decide +kernel
example : (lexDoc demoU (str! "transition foo() { foo(); bar() }")).map (fun ts => (parseAs .transDef ts).isSome) = some false := by
  decide +kernel
example : (lexDoc demoU (str! "transaction foo() { bar() }")).map (fun ts => (parseAs .transDef ts).isSome) = some false := by
  decide +kernel
example : (lexDoc demoU (str! "transition foo() { bar }")).map (fun ts => (parseAs .transDef ts).isSome) = some false := by
  decide +kernel
example : (lexDoc demoU (str! "transition foo() { bar( }")).map (fun ts => (parseAs .transDef ts).isSome) = some false := by
  decide +kernel
example : (lexDoc demoU (str! "transition foo() { bar() };")).map (fun ts => (parseAs .transDef ts).isSome) = some false := by
  decide +kernel
example : (lexDoc demoU (str! "transition foo() { ; }")).map (fun ts => (parseAs .transDef ts).isSome) = some false := by
  decide +kernel
example : (lexDoc demoU (str! "MyType")).map (fun ts => (parseAs .componentId ts).isSome) = some true := by
  decide +kernel
example : (lexDoc demoU (str! "Event42")).map (fun ts => (parseAs .componentId ts).isSome) = some true := by
  decide +kernel
example : (lexDoc demoU (str! "Foo_Bar")).map (fun ts => (parseAs .componentId ts).isSome) = some true := by
  decide +kernel
example : (lexDoc demoU (str! "ByStr42")).map (fun ts => (parseAs .componentId ts).isSome) = some true := by
  decide +kernel
example : (lexDoc demoU (str! "regular_id")).map (fun ts => (parseAs .componentId ts).isSome) = some true := by
  decide +kernel
example : (lexDoc demoU (str! "42Event")).map (fun ts => (parseAs .componentId ts).isSome) = some false := by
  decide +kernel
example : (lexDoc demoU (str! "my type")).map (fun ts => (parseAs .componentId ts).isSome) = some false := by
  decide +kernel
example : (lexDoc demoU (str! "event+")).map (fun ts => (parseAs .componentId ts).isSome) = some false := by
  decide +kernel
example : (lexDoc demoU (str! "ByStr")).map (fun ts => (parseAs .componentId ts).isSome) = some false := by
  decide +kernel
example : (lexDoc demoU (str! "()")).map (fun ts => (parseAs .compParams ts).isSome) = some true := by
  decide +kernel
example : (lexDoc demoU (str! "(a: Int32)")).map (fun ts => (parseAs .compParams ts).isSome) = some true := by
  decide +kernel
example : (lexDoc demoU (str! "(a: Int32, b: Bool)")).map (fun ts => (parseAs .compParams ts).isSome) = some true := by
  decide +kernel
example : (lexDoc demoU (str! "(a: Int32, b: Bool, c: String)")).map (fun ts => (parseAs .compParams ts).isSome) = some true := by
  decide +kernel
example : (lexDoc demoU (str! "(a: ByStr20, b: Map ByStr20 (Uint256))")).map (fun ts => (parseAs .compParams ts).isSome) = some true := by
  decide +kernel
example : (lexDoc demoU (str! "a: Int32, b: Bool")).map (fun ts => (parseAs .compParams ts).isSome) = some false := by
  decide +kernel
example : (lexDoc demoU (str! "(a: Int32")).map (fun ts => (parseAs .compParams ts).isSome) = some false := by
  decide +kernel
example : (lexDoc demoU (str! "(a: Int32,, b: Bool)")).map (fun ts => (parseAs .compParams ts).isSome) = some false := by
  decide +kernel
example : (lexDoc demoU (str! "(())")).map (fun ts => (parseAs .compParams ts).isSome) = some false := by
  decide +kernel
example : (lexDoc demoU (str! "(a: )")).map (fun ts => (parseAs .compParams ts).isSome) = some false := by
  decide +kernel
example : (lexDoc demoU (str! "\n        RequireNotPaused;\n        RequireContractOwner;\n  \n        is_paused := true;\n        e = {\n          _eventname: \"Pause\";\n          is_paused: true\n        };\n        event e\n      end\n      ")).map (fun ts => (parseAs .compBody ts).isSome) = some true := by
  decide +kernel
example : (lexDoc demoU (str! "\n        RequirePaused;\n        RequireContractOwner;\n  \n        is_paused := false;\n        e = {\n          _eventname: \"Unpause\";\n          is_paused: false\n        };\n        event e\n      end\n      ")).map (fun ts => (parseAs .compBody ts).isSome) = some true := by
  decide +kernel
example : (lexDoc demoU (str! "\n          current_init <-& init.dApp;\n          xPointsDApp = \"xpoints\"; get_addr <-& current_init.dns[xPointsDApp]; addr = option_bystr20_value get_addr;\n          is_xPoints = builtin eq _sender addr; match is_xPoints with\n          | True => | False => e = { _exception : \"donate.tyron-WrongCaller\" }; throw e end;\n          get_xPoints <- xpoints[_origin]; x_points = option_uint128_value get_xPoints; IsSufficient x_points amount;\n          new_bal = builtin sub x_points amount; xpoints[_origin] := new_bal end\n      ")).map (fun ts => (parseAs .compBody ts).isSome) = some true := by
  decide +kernel
example : (lexDoc demoU (str! "field foo: Int32 = Int32 42")).map (fun ts => (parseAs .contractField ts).isSome) = some true := by
  decide +kernel
example : (lexDoc demoU (str! "field bar: Map ByStr32 (List Uint32) = Emp ByStr32 (List Uint32)")).map (fun ts => (parseAs .contractField ts).isSome) = some true := by
  decide +kernel
example : (lexDoc demoU (str! "field baz: Event = Event")).map (fun ts => (parseAs .contractField ts).isSome) = some true := by
  decide +kernel
example : (lexDoc demoU (str! "field: Foo = Bar")).map (fun ts => (parseAs .contractField ts).isSome) = some false := by
  decide +kernel
example : (lexDoc demoU (str! "field bar = 42")).map (fun ts => (parseAs .contractField ts).isSome) = some false := by
  decide +kernel
example : (lexDoc demoU (str! "field baz: Event = 42")).map (fun ts => (parseAs .contractField ts).isSome) = some false := by
  decide +kernel
example : (lexDoc demoU (str! "field qux = 'hello world'")).map (fun ts => (parseAs .contractField ts).isSome) = some false := by
  decide +kernel
example : (lexDoc demoU (str! "with builtin blt end_of_life =>")).map (fun ts => (parseAs .withConstraint ts).isSome) = some true := by
  decide +kernel
example : (lexDoc demoU (str! "with builtin add {UInt32} one  =>")).map (fun ts => (parseAs .withConstraint ts).isSome) = some true := by
  decide +kernel
example : (lexDoc demoU (str! "with true =>")).map (fun ts => (parseAs .withConstraint ts).isSome) = some true := by
  decide +kernel
example : (lexDoc demoU (str! "with variableIdentifier =>")).map (fun ts => (parseAs .withConstraint ts).isSome) = some true := by
  decide +kernel
example : (lexDoc demoU (str! "foo")).map (fun ts => (parseAs .withConstraint ts).isSome) = some false := by
  decide +kernel
example : (lexDoc demoU (str! "with variableIdentifier => foo")).map (fun ts => (parseAs .withConstraint ts).isSome) = some false := by
  decide +kernel
example : (lexDoc demoU (str! "with =>")).map (fun ts => (parseAs .withConstraint ts).isSome) = some false := by
  decide +kernel
example : (lexDoc demoU (str! "with")).map (fun ts => (parseAs .withConstraint ts).isSome) = some false := by
  decide +kernel
example : (lexDoc demoU (str! "contract MyContract()")).map (fun ts => (parseAs .contractDef ts).isSome) = some true := by
  decide +kernel
example : (lexDoc demoU (str! "contract MyContract(address: ByStr20)")).map (fun ts => (parseAs .contractDef ts).isSome) = some true := by
  decide +kernel
example : (lexDoc demoU (str! "contract MyContract(address: ByStr20) with true =>")).map (fun ts => (parseAs .contractDef ts).isSome) = some true := by
  decide +kernel
example : (lexDoc demoU (str! "contract MyContract(address: ByStr20) with true => field field1: Uint32 = Uint32 1")).map (fun ts => (parseAs .contractDef ts).isSome) = some true := by
  decide +kernel
example : (lexDoc demoU (str! "contract MyContract(address: ByStr20) with true => field field1: Uint32 = Uint32 1 transition a() end")).map (fun ts => (parseAs .contractDef ts).isSome) = some true := by
  decide +kernel
example : (lexDoc demoU (str! "contract MyContract(address: ByStr20) with true => field field1: Uint32 = Uint32 1 procedure a() end")).map (fun ts => (parseAs .contractDef ts).isSome) = some true := by
  decide +kernel
example : (lexDoc demoU (str! "contract MyContract(address: ByStr20) with true => field field1: Uint32 = Uint32 1 procedure RequireNotSelf(address: ByStr20)\n      is_self = builtin eq address _sender;\n      match is_self with\n      | False =>\n      | True =>\n          error = SelfError;\n          Throw error\n      end\n      end")).map (fun ts => (parseAs .contractDef ts).isSome) = some true := by
  decide +kernel
example : (lexDoc demoU (str! "contract MyContract")).map (fun ts => (parseAs .contractDef ts).isSome) = some false := by
  decide +kernel
example : (lexDoc demoU (str! "contract MyContract end")).map (fun ts => (parseAs .contractDef ts).isSome) = some false := by
  decide +kernel
example : (lexDoc demoU (str! "Contract MyContract")).map (fun ts => (parseAs .contractDef ts).isSome) = some false := by
  decide +kernel
example : (lexDoc demoU (str! "contract")).map (fun ts => (parseAs .contractDef ts).isSome) = some false := by
  decide +kernel
example : (lexDoc demoU (str! "contract MyContract(address: ByStr20,) with (true =>)")).map (fun ts => (parseAs .contractDef ts).isSome) = some false := by
  decide +kernel
example : (lexDoc demoU (str! "contract MyContract(address: ByStr20) with true => field field1 = 1")).map (fun ts => (parseAs .contractDef ts).isSome) = some false := by
  decide +kernel
example : (lexDoc demoU (str! "contract MyContract(address: ByStr20) with true => field field1: = 1")).map (fun ts => (parseAs .contractDef ts).isSome) = some false := by
  decide +kernel
example : (lexDoc demoU (str! "contract MyContract(address: ByStr20) with true => field field1: Uint32 = 1 field2: 10")).map (fun ts => (parseAs .contractDef ts).isSome) = some false := by
  decide +kernel
example : (lexDoc demoU (str! "contract MyContract(address: ByStr20) with true => field field1: Uint32 = 1 transition a(Void) {}")).map (fun ts => (parseAs .contractDef ts).isSome) = some false := by
  decide +kernel
example : (lexDoc demoU (str! "contract MyContract(address: ByStr20) with true => field field1: Uint32 = 1 procedure a(Void) {")).map (fun ts => (parseAs .contractDef ts).isSome) = some false := by
  decide +kernel
example : (lexDoc demoU (str! "| MyType")).map (fun ts => (parseAs .typeAlt ts).isSome) = some true := by
  decide +kernel
example : (lexDoc demoU (str! "| MyType of Int")).map (fun ts => (parseAs .typeAlt ts).isSome) = some true := by
  decide +kernel
example : (lexDoc demoU (str! "| ByStr123 of Map MyType Int")).map (fun ts => (parseAs .typeAlt ts).isSome) = some true := by
  decide +kernel
example : (lexDoc demoU (str! "| MyType of")).map (fun ts => (parseAs .typeAlt ts).isSome) = some false := by
  decide +kernel
example : (lexDoc demoU (str! "| 123MyType")).map (fun ts => (parseAs .typeAlt ts).isSome) = some false := by
  decide +kernel
example : (lexDoc demoU (str! "| ByStr")).map (fun ts => (parseAs .typeAlt ts).isSome) = some false := by
  decide +kernel
example : (lexDoc demoU (str! "let foo = Int32 42")).map (fun ts => (parseAs .librarySingle ts).isSome) = some true := by
  decide +kernel
example : (lexDoc demoU (str! "let foo: Int32 = Int32 42")).map (fun ts => (parseAs .librarySingle ts).isSome) = some true := by
  decide +kernel
example : (lexDoc demoU (str! "type Foo")).map (fun ts => (parseAs .librarySingle ts).isSome) = some true := by
  decide +kernel
example : (lexDoc demoU (str! "type Foo = | Bar | Baz")).map (fun ts => (parseAs .librarySingle ts).isSome) = some true := by
  decide +kernel
example : (lexDoc demoU (str! "let = Int32 42")).map (fun ts => (parseAs .librarySingle ts).isSome) = some false := by
  decide +kernel
example : (lexDoc demoU (str! "let foo: = 42")).map (fun ts => (parseAs .librarySingle ts).isSome) = some false := by
  decide +kernel
example : (lexDoc demoU (str! "type Int32 42")).map (fun ts => (parseAs .librarySingle ts).isSome) = some false := by
  decide +kernel
example : (lexDoc demoU (str! "type Foo = | Bar Baz")).map (fun ts => (parseAs .librarySingle ts).isSome) = some false := by
  decide +kernel
example : (lexDoc demoU (str! "library Foo")).map (fun ts => (parseAs .libraryDef ts).isSome) = some true := by
  decide +kernel
example : (lexDoc demoU (str! "library Bar let x = Int32 10")).map (fun ts => (parseAs .libraryDef ts).isSome) = some true := by
  decide +kernel
example : (lexDoc demoU (str! "library Baz type Quux")).map (fun ts => (parseAs .libraryDef ts).isSome) = some true := by
  decide +kernel
example : (lexDoc demoU (str! "library Qux type Quux = | Event")).map (fun ts => (parseAs .libraryDef ts).isSome) = some true := by
  decide +kernel
example : (lexDoc demoU (str! "library Quux type Quux = | Event of Uint256")).map (fun ts => (parseAs .libraryDef ts).isSome) = some true := by
  decide +kernel
example : (lexDoc demoU (str! "library Quuz type Quux = | Event of Uint256 | AnotherEvent of ByStr20")).map (fun ts => (parseAs .libraryDef ts).isSome) = some true := by
  decide +kernel
example : (lexDoc demoU (str! "library Qoorx let x: Int32 = Int32 42")).map (fun ts => (parseAs .libraryDef ts).isSome) = some true := by
  decide +kernel
example : (lexDoc demoU (str! "library Foo Bar")).map (fun ts => (parseAs .libraryDef ts).isSome) = some false := by
  decide +kernel
example : (lexDoc demoU (str! "library")).map (fun ts => (parseAs .libraryDef ts).isSome) = some false := by
  decide +kernel
example : (lexDoc demoU (str! "library Foo bar")).map (fun ts => (parseAs .libraryDef ts).isSome) = some false := by
  decide +kernel
example : (lexDoc demoU (str! "library Foo type")).map (fun ts => (parseAs .libraryDef ts).isSome) = some false := by
  decide +kernel
example : (lexDoc demoU (str! "library Foo type = | Event")).map (fun ts => (parseAs .libraryDef ts).isSome) = some false := by
  decide +kernel
example : (lexDoc demoU (str! "library Foo type Quux =")).map (fun ts => (parseAs .libraryDef ts).isSome) = some false := by
  decide +kernel
example : (lexDoc demoU (str! "library Foo type Quux = |")).map (fun ts => (parseAs .libraryDef ts).isSome) = some false := by
  decide +kernel
example : (lexDoc demoU (str! "library Foo type Quux = | Event of")).map (fun ts => (parseAs .libraryDef ts).isSome) = some false := by
  decide +kernel
example : (lexDoc demoU (str! "library Foo let")).map (fun ts => (parseAs .libraryDef ts).isSome) = some false := by
  decide +kernel
example : (lexDoc demoU (str! "library Foo let x")).map (fun ts => (parseAs .libraryDef ts).isSome) = some false := by
  decide +kernel
example : (lexDoc demoU (str! "library Foo let = 42")).map (fun ts => (parseAs .libraryDef ts).isSome) = some false := by
  decide +kernel

end Verif
