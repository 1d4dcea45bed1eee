import Verif.Conformance.Basic
/-
Generated by tools/conformance.py from /repo/tests/full_contract_tests.rs and /repo/tests/contracts: the contracts of
the project's own tests (but the three largest), evaluated on the model.  (Validation of the model, not proofs of
properties.)
-/
set_option maxRecDepth 100000
namespace Verif

/-- tests/contracts/Map.scilla -/
def docMap : Str := List.flatten [
  str! "scilla_version 0\n",
  str! "contract DifferentMaps\n",
  str! "()\n",
  str! "\n",
  str! "field first_map: Map String BNum\n",
  str! "                  = Emp String BNum\n",
  str! "field status3days: Map String (Pair (ByStr20) (BNum))\n",
  str! "                  = Emp String (Pair (ByStr20) (BNum))\n",
  str! "field reward_pairs : Map ByStr20 (List Uint128)\n",
  str! "                  = Emp (ByStr20) (List Uint128)\n",
  str! "field user_withdrawal_dict: Option Map BNum Uint128 = None {Map BNum Uint128}"]

/-- full_contract_tests.rs: the contract it must give -/
example : fromStr demoEnv docMap = .ok ⟨(str! "DifferentMaps"),
    [],
    [⟨(str! "first_map"), (.map .string .bNum)⟩, ⟨(str! "status3days"), (.map .string (.pair .byStr20 .bNum))⟩, ⟨(str! "reward_pairs"), (.map .byStr20 (.list .uint128))⟩, ⟨(str! "user_withdrawal_dict"), (.option (.map .bNum .uint128))⟩],
    []⟩ := by
  decide +kernel

/-- tests/contracts/ByStr.scilla -/
def docByStr : Str := List.flatten [
  str! "scilla_version 0\n",
  str! "\n",
  str! "contract AllByStrVariants\n",
  str! "  (\n",
  str! "    bystr : ByStr,\n",
  str! "    bystr32 : ByStr32,\n",
  str! "    raw_address: ByStr20,\n",
  str! "    library_address : ByStr20 with library end,\n",
  str! "    contract_address : ByStr20 with contract end,\n",
  str! "    detailed_contract_address :\n",
  str! "      ByStr20 with contract\n",
  str! "        field allowances : Map ByStr20 (Map ByStr20 Uint128),\n",
  str! "        field balances : Map ByStr20 Uint128,\n",
  str! "        field total_supply : Uint128\n",
  str! "        end,\n",
  str! "    complex_contract_address: ByStr20 with contract\n",
  str! "      field implementation: ByStr20 with contract\n",
  str! "        field services: Map String ByStr20,\n",
  str! "        field utility: Map String Uint128 end,\n",
  str! "      field dns: Map String ByStr20,\n",
  str! "      field guardians: Map String ByStr20 with contract field verification_methods: Map String ByStr33 end end\n",
  str! "  )\n",
  str! "\n",
  str! "transition ArbitrageFromXCAD\n",
  str! "  (token : ByStr20 with contract field balances : Map ByStr20 Uint128 end)\n",
  str! "end\n",
  str! "\n",
  str! "transition BuyNFTUsername(\n",
  str! "  username: String,\n",
  str! "  guardianship: Option ByStr20 with contract field verification_methods: Map String ByStr33 end,\n",
  str! "  id: String,\n",
  str! "  tyron: Option Uint128\n",
  str! "  )\n",
  str! "end"]

/-- full_contract_tests.rs: the contract it must give -/
example : fromStr demoEnv docByStr = .ok ⟨(str! "AllByStrVariants"),
    [⟨(str! "bystr"), .byStr⟩, ⟨(str! "bystr32"), (.byStrX 32)⟩, ⟨(str! "raw_address"), .byStr20⟩, ⟨(str! "library_address"), (.byStr20With (str! "library") [])⟩, ⟨(str! "contract_address"), (.byStr20With (str! "contract") [])⟩, ⟨(str! "detailed_contract_address"), (.byStr20With (str! "contract") [⟨(str! "allowances"), (.map .byStr20 (.map .byStr20 .uint128))⟩, ⟨(str! "balances"), (.map .byStr20 .uint128)⟩, ⟨(str! "total_supply"), .uint128⟩])⟩, ⟨(str! "complex_contract_address"), (.byStr20With (str! "contract") [⟨(str! "implementation"), (.byStr20With (str! "contract") [⟨(str! "services"), (.map .string .byStr20)⟩, ⟨(str! "utility"), (.map .string .uint128)⟩])⟩, ⟨(str! "dns"), (.map .string .byStr20)⟩, ⟨(str! "guardians"), (.map .string (.byStr20With (str! "contract") [⟨(str! "verification_methods"), (.map .string (.byStrX 33))⟩]))⟩])⟩],
    [],
    [⟨(str! "ArbitrageFromXCAD"), [⟨(str! "token"), (.byStr20With (str! "contract") [⟨(str! "balances"), (.map .byStr20 .uint128)⟩])⟩]⟩, ⟨(str! "BuyNFTUsername"), [⟨(str! "username"), .string⟩, ⟨(str! "guardianship"), (.option (.byStr20With (str! "contract") [⟨(str! "verification_methods"), (.map .string (.byStrX 33))⟩]))⟩, ⟨(str! "id"), .string⟩, ⟨(str! "tyron"), (.option .uint128)⟩]⟩]⟩ := by
  decide +kernel

/-- tests/contracts/Timestamp.scilla -/
def docTimestamp : Str := List.flatten [
  str! "scilla_version 0\n",
  str! "\n",
  str! "(***************************************************)\n",
  str! "(*             The contract definition             *)\n",
  str! "(***************************************************)\n",
  str! "contract Timestamp ()\n",
  str! "\n",
  str! "\n",
  str! "transition EventTimestamp (bnum: BNum)\n",
  str! "ts <-& TIMESTAMP(bnum);\n",
  str! "e = { _eventname : \"TS\"; timestamp : ts };\n",
  str! "event e\n",
  str! "end"]

/-- full_contract_tests.rs: the contract it must give -/
example : fromStr demoEnv docTimestamp = .ok ⟨(str! "Timestamp"),
    [],
    [],
    [⟨(str! "EventTimestamp"), [⟨(str! "bnum"), .bNum⟩]⟩]⟩ := by
  decide +kernel

/-- tests/contracts/chainid.scilla -/
def docchainid : Str := List.flatten [
  str! "scilla_version 0\n",
  str! "  \n",
  str! "(***************************************************)\n",
  str! "(*             The contract definition             *)\n",
  str! "(***************************************************)\n",
  str! "\n",
  str! "contract ChainId()\n",
  str! "field dummy_field : Uint256 = Uint256 0\n",
  str! "\n",
  str! "transition EventChainID ()\n",
  str! "  cid <-& CHAINID;\n",
  str! "  e = { _eventname : \"ChainID\"; chain_id : cid };\n",
  str! "  event e\n",
  str! "end"]

/-- full_contract_tests.rs: the contract it must give -/
example : fromStr demoEnv docchainid = .ok ⟨(str! "ChainId"),
    [],
    [⟨(str! "dummy_field"), .uint256⟩],
    [⟨(str! "EventChainID"), []⟩]⟩ := by
  decide +kernel

/-- tests/contracts/HelloWorld.scilla -/
def docHelloWorld : Str := List.flatten [
  str! "scilla_version 0\n",
  str! "\n",
  str! "(* HelloWorld contract *)\n",
  str! "\n",
  str! "import ListUtils\n",
  str! "\n",
  str! "(***************************************************)\n",
  str! "(*               Associated library                *)\n",
  str! "(***************************************************)\n",
  str! "library HelloWorld\n",
  str! "\n",
  str! "let not_owner_code = Int32 1\n",
  str! "let set_hello_code = Int32 2\n",
  str! "\n",
  str! "(***************************************************)\n",
  str! "(*             The contract definition             *)\n",
  str! "(***************************************************)\n",
  str! "\n",
  str! "contract HelloWorld\n",
  str! "(owner: ByStr20)\n",
  str! "\n",
  str! "field welcome_msg : String = \"Hello world!\"\n",
  str! "\n",
  str! "transition setHello (msg : String)\n",
  str! "    is_owner = builtin eq owner _sender;\n",
  str! "    match is_owner with\n",
  str! "    | False =>\n",
  str! "    e = {_eventname : \"setHello()\"; code : not_owner_code};\n",
  str! "    event e\n",
  str! "    | True =>\n",
  str! "    welcome_msg := msg;\n",
  str! "    e = {_eventname : \"setHello()\"; code : set_hello_code};\n",
  str! "    event e\n",
  str! "    end\n",
  str! "end\n",
  str! "\n",
  str! "\n",
  str! "transition getHello ()\n",
  str! "    r <- welcome_msg;\n",
  str! "    e = {_eventname: \"getHello()\"; msg: r};\n",
  str! "    event e\n",
  str! "end"]

/-- full_contract_tests.rs: the contract it must give -/
example : fromStr demoEnv docHelloWorld = .ok ⟨(str! "HelloWorld"),
    [⟨(str! "owner"), .byStr20⟩],
    [⟨(str! "welcome_msg"), .string⟩],
    [⟨(str! "setHello"), [⟨(str! "msg"), .string⟩]⟩, ⟨(str! "getHello"), []⟩]⟩ := by
  decide +kernel

/-- tests/contracts/GetFields.scilla -/
def docGetFields : Str := List.flatten [
  str! "scilla_version 0\n",
  str! "(***************************************************)\n",
  str! "(*               Basic setter and getter           *)\n",
  str! "(***************************************************)\n",
  str! "contract GetFields ()\n",
  str! "\n",
  str! "(*Integer fields*)\n",
  str! "field field_uint32: Uint32 = Uint32 0\n",
  str! "field field_uint64: Uint64 = Uint64 1\n",
  str! "field field_uint128: Uint128 = Uint128 2\n",
  str! "field field_uint256: Uint256 = Uint256 3\n",
  str! "field field_int32: Int32 = Int32 -1\n",
  str! "field field_int64: Int64 = Int64 -4\n",
  str! "field field_int128: Int128 = Int128 -2\n",
  str! "field field_bnum: BNum = BNum 101\n",
  str! "\n",
  str! "(*String fields*)\n",
  str! "field field_string: String = \"test\"\n",
  str! "field field_address: ByStr20 = 0x1234567890123456789012345678901234567890\n",
  str! "\n",
  str! "(*ADT*)\n",
  str! "field field_bool_false: Bool = False\n",
  str! "field field_bool_true: Bool = True\n",
  str! "field field_option_bystr20_none: Option ByStr20 = None {ByStr20}\n",
  str! "field field_option_bystr20_some: Option ByStr20 =\n",
  str! "  let addr = 0x1234567890123456789012345678901234567890 in\n",
  str! "  Some {ByStr20} addr\n",
  str! "\n",
  str! "field field_option_int32_some: Option Int32 =\n",
  str! "  let ten = Int32 10 in\n",
  str! "  Some {Int32} ten\n",
  str! "\n",
  str! "field field_option_bool_some: Option Bool =\n",
  str! "  let v = True in\n",
  str! "  Some {Bool} v\n",
  str! "\n",
  str! "field field_pair: Pair String Uint32 =\n",
  str! "              let s1 = \"Hello\" in\n",
  str! "              let num = Uint32 2 in\n",
  str! "              Pair {String Uint32} s1 num\n",
  str! "\n",
  str! "\n",
  str! "field balances: Map ByStr20 Uint128 \n",
  str! "  = let emp_map = Emp ByStr20 Uint128 in\n",
  str! "    builtin put emp_map contract_owner init_supply\n",
  str! "\n",
  str! "field field_list : List Int32 =\n",
  str! "    let nil = Nil {Int32} in\n",
  str! "    let one = Int32 1 in\n",
  str! "    let l = Cons {Int32} one nil in\n",
  str! "    let two = Int32 2 in\n",
  str! "    Cons {Int32} two l\n"]

/-- full_contract_tests.rs: the contract it must give -/
example : fromStr demoEnv docGetFields = .ok ⟨(str! "GetFields"),
    [],
    [⟨(str! "field_uint32"), .uint32⟩, ⟨(str! "field_uint64"), .uint64⟩, ⟨(str! "field_uint128"), .uint128⟩, ⟨(str! "field_uint256"), .uint256⟩, ⟨(str! "field_int32"), .int32⟩, ⟨(str! "field_int64"), .int64⟩, ⟨(str! "field_int128"), .int128⟩, ⟨(str! "field_bnum"), .bNum⟩, ⟨(str! "field_string"), .string⟩, ⟨(str! "field_address"), .byStr20⟩, ⟨(str! "field_bool_false"), .bool⟩, ⟨(str! "field_bool_true"), .bool⟩, ⟨(str! "field_option_bystr20_none"), (.option .byStr20)⟩, ⟨(str! "field_option_bystr20_some"), (.option .byStr20)⟩, ⟨(str! "field_option_int32_some"), (.option .int32)⟩, ⟨(str! "field_option_bool_some"), (.option .bool)⟩, ⟨(str! "field_pair"), (.pair .string .uint32)⟩, ⟨(str! "balances"), (.map .byStr20 .uint128)⟩, ⟨(str! "field_list"), (.list .int32)⟩],
    []⟩ := by
  decide +kernel

/-- tests/contracts/CallTransition.scilla -/
def docCallTransition : Str := List.flatten [
  str! "scilla_version 0\n",
  str! "(***************************************************)\n",
  str! "(*               Basic setter and getter           *)\n",
  str! "(***************************************************)\n",
  str! "contract CallTransition\n",
  str! "()\n",
  str! "\n",
  str! "transition call_uint32(v : Uint32)\n",
  str! "end\n",
  str! "\n",
  str! "transition call_uint64(v : Uint64)\n",
  str! "end\n",
  str! "\n",
  str! "transition call_uint128(v : Uint128)\n",
  str! "end\n",
  str! "\n",
  str! "transition call_uint256(v : Uint256)\n",
  str! "end\n",
  str! "\n",
  str! "transition call_int32(v : Int32)\n",
  str! "end\n",
  str! "\n",
  str! "transition call_int64(v : Int64)\n",
  str! "end\n",
  str! "\n",
  str! "transition call_int128(v : Int128)\n",
  str! "end\n",
  str! "\n",
  str! "transition call_string(v : String)\n",
  str! "end\n",
  str! "\n",
  str! "transition call_address(v : ByStr20)\n",
  str! "end\n",
  str! "\n",
  str! "transition call_option_bool(v : (Option Bool))\n",
  str! "end\n",
  str! "\n",
  str! "transition call_bool(v : Bool)\n",
  str! "end\n",
  str! "\n",
  str! "transition call_bnum(v : BNum)\n",
  str! "end\n",
  str! "\n",
  str! "transition call_pair(v : Pair String Uint32)\n",
  str! "end\n",
  str! "\n",
  str! "transition call_list(v : List ByStr20)\n",
  str! "end\n",
  str! "\n",
  str! "transition call_list_2(v: (List (Pair ByStr20 (List (Pair ByStr20 Uint32)))))\n",
  str! "end\n",
  str! "\n",
  str! "transition call_list_3(v: (List (Pair String String)))\n",
  str! "end\n",
  str! "\n",
  str! "transition call_list_4(v: (List (Pair ByStr20 (List (Pair ByStr20 (List (Pair Uint32 Uint128)))))))\n",
  str! "end\n",
  str! "\n",
  str! "transition call_list_5(v: (List (Pair ByStr20 (List (Pair BNum Uint128)))))\n",
  str! "end"]

/-- full_contract_tests.rs: the contract it must give -/
example : fromStr demoEnv docCallTransition = .ok ⟨(str! "CallTransition"),
    [],
    [],
    [⟨(str! "call_uint32"), [⟨(str! "v"), .uint32⟩]⟩, ⟨(str! "call_uint64"), [⟨(str! "v"), .uint64⟩]⟩, ⟨(str! "call_uint128"), [⟨(str! "v"), .uint128⟩]⟩, ⟨(str! "call_uint256"), [⟨(str! "v"), .uint256⟩]⟩, ⟨(str! "call_int32"), [⟨(str! "v"), .int32⟩]⟩, ⟨(str! "call_int64"), [⟨(str! "v"), .int64⟩]⟩, ⟨(str! "call_int128"), [⟨(str! "v"), .int128⟩]⟩, ⟨(str! "call_string"), [⟨(str! "v"), .string⟩]⟩, ⟨(str! "call_address"), [⟨(str! "v"), .byStr20⟩]⟩, ⟨(str! "call_option_bool"), [⟨(str! "v"), (.option .bool)⟩]⟩, ⟨(str! "call_bool"), [⟨(str! "v"), .bool⟩]⟩, ⟨(str! "call_bnum"), [⟨(str! "v"), .bNum⟩]⟩, ⟨(str! "call_pair"), [⟨(str! "v"), (.pair .string .uint32)⟩]⟩, ⟨(str! "call_list"), [⟨(str! "v"), (.list .byStr20)⟩]⟩, ⟨(str! "call_list_2"), [⟨(str! "v"), (.list (.pair .byStr20 (.list (.pair .byStr20 .uint32))))⟩]⟩, ⟨(str! "call_list_3"), [⟨(str! "v"), (.list (.pair .string .string))⟩]⟩, ⟨(str! "call_list_4"), [⟨(str! "v"), (.list (.pair .byStr20 (.list (.pair .byStr20 (.list (.pair .uint32 .uint128))))))⟩]⟩, ⟨(str! "call_list_5"), [⟨(str! "v"), (.list (.pair .byStr20 (.list (.pair .bNum .uint128))))⟩]⟩]⟩ := by
  decide +kernel

/-- tests/contracts/SendZil.scilla -/
def docSendZil : Str := List.flatten [
  str! "scilla_version 0\n",
  str! "\n",
  str! "contract SendZil\n",
  str! "()\n",
  str! "field test_field : Uint256 = Uint256 0\n",
  str! "field bool : Bool = True\n",
  str! "field empty_bool : Option Bool = None {Bool}\n",
  str! "field some_int : Option Int32 = let ten = Int32 10 in\n",
  str! "  Some {Int32} ten\n",
  str! "\n",
  str! "field pair: Pair String Uint32 =\n",
  str! "              let s1 = \"Hello\" in\n",
  str! "              let num = Uint32 2 in\n",
  str! "              Pair {String Uint32} s1 num\n",
  str! "\n",
  str! "field list : List Int32 =\n",
  str! "  let nil = Nil {Int32} in\n",
  str! "  let one = Int32 1 in\n",
  str! "Cons {Int32} one nil\n",
  str! "\n",
  str! "transition acceptZil ()\n",
  str! "  accept;\n",
  str! "  v <- _balance;\n",
  str! "  ev = {_eventname: \"currentBalance\"; value: v};\n",
  str! "  event ev\n",
  str! "end\n",
  str! "\n",
  str! "transition updateTestField (val : Uint256)\n",
  str! "  test_field := val\n",
  str! "end\n",
  str! "\n",
  str! "transition dontAcceptZil ()\n",
  str! "  v <- _balance;\n",
  str! "  ev = {_eventname: \"currentBalance\"; value: v};\n",
  str! "  event ev\n",
  str! "end\n",
  str! "\n",
  str! "(* See ZIL-5165 *)\n",
  str! "transition fundUserWithTag( user : ByStr20, amount : Uint128)\n",
  str! "  msg = { _tag : \"AddFunds\"; _recipient : user ; _amount : amount };\n",
  str! "  no_msg = Nil {Message};\n",
  str! "  msgs = Cons {Message} msg no_msg;\n",
  str! "  send msgs\n",
  str! "end\n",
  str! "\n",
  str! "transition fundUser (user : ByStr20, amount : Uint128)\n",
  str! "  msg = { _tag : \"\" ; _recipient : user ; _amount : amount };\n",
  str! "  no_msg = Nil {Message};\n",
  str! "  msgs = Cons {Message} msg no_msg;\n",
  str! "  send msgs\n",
  str! "end\n",
  str! "\n",
  str! "transition fundContract (contract_address : ByStr20, amount : Uint128)\n",
  str! "  msg = { _tag : \"acceptZil\" ; _recipient : contract_address ; _amount : amount };\n",
  str! "  no_msg = Nil {Message};\n",
  str! "  msgs = Cons {Message} msg no_msg;\n",
  str! "  send msgs\n",
  str! "end\n",
  str! "\n",
  str! "transition callOtherContract (contract_address : ByStr20, tag : String, value : Uint256)\n",
  str! "  msg = { _tag : tag ; _recipient : contract_address ; _amount : Uint128 0 ; val: value};\n",
  str! "  no_msg = Nil {Message};\n",
  str! "  msgs = Cons {Message} msg no_msg;\n",
  str! "  send msgs\n",
  str! "end"]

/-- full_contract_tests.rs: the contract it must give -/
example : fromStr demoEnv docSendZil = .ok ⟨(str! "SendZil"),
    [],
    [⟨(str! "test_field"), .uint256⟩, ⟨(str! "bool"), .bool⟩, ⟨(str! "empty_bool"), (.option .bool)⟩, ⟨(str! "some_int"), (.option .int32)⟩, ⟨(str! "pair"), (.pair .string .uint32)⟩, ⟨(str! "list"), (.list .int32)⟩],
    [⟨(str! "acceptZil"), []⟩, ⟨(str! "updateTestField"), [⟨(str! "val"), .uint256⟩]⟩, ⟨(str! "dontAcceptZil"), []⟩, ⟨(str! "fundUserWithTag"), [⟨(str! "user"), .byStr20⟩, ⟨(str! "amount"), .uint128⟩]⟩, ⟨(str! "fundUser"), [⟨(str! "user"), .byStr20⟩, ⟨(str! "amount"), .uint128⟩]⟩, ⟨(str! "fundContract"), [⟨(str! "contract_address"), .byStr20⟩, ⟨(str! "amount"), .uint128⟩]⟩, ⟨(str! "callOtherContract"), [⟨(str! "contract_address"), .byStr20⟩, ⟨(str! "tag"), .string⟩, ⟨(str! "value"), .uint256⟩]⟩]⟩ := by
  decide +kernel

/-- tests/contracts/FungibleToken.scilla -/
def docFungibleToken : Str := List.flatten [
  str! "scilla_version 0\n",
  str! "\n",
  str! "(***************************************************)\n",
  str! "(*               Associated library                *)\n",
  str! "(***************************************************)\n",
  str! "import IntUtils\n",
  str! "library FungibleToken\n",
  str! "\n",
  str! "let one_msg = \n",
  str! "  fun (msg : Message) => \n",
  str! "  let nil_msg = Nil {Message} in\n",
  str! "  Cons {Message} msg nil_msg\n",
  str! "\n",
  str! "let two_msgs =\n",
  str! "fun (msg1 : Message) =>\n",
  str! "fun (msg2 : Message) =>\n",
  str! "  let msgs_tmp = one_msg msg2 in\n",
  str! "  Cons {Message} msg1 msgs_tmp\n",
  str! "\n",
  str! "(* Error events *)\n",
  str! "type Error =\n",
  str! "| CodeIsSender\n",
  str! "| CodeInsufficientFunds\n",
  str! "| CodeInsufficientAllowance\n",
  str! "\n",
  str! "let make_error =\n",
  str! "  fun (result : Error) =>\n",
  str! "    let result_code = \n",
  str! "      match result with\n",
  str! "      | CodeIsSender              => Int32 -1\n",
  str! "      | CodeInsufficientFunds     => Int32 -2\n",
  str! "      | CodeInsufficientAllowance => Int32 -3\n",
  str! "      end\n",
  str! "    in\n",
  str! "    { _exception : \"Error\"; code : result_code }\n",
  str! "  \n",
  str! "let zero = Uint128 0\n",
  str! "\n",
  str! "(* Dummy user-defined ADT *)\n",
  str! "type Unit =\n",
  str! "| Unit\n",
  str! "\n",
  str! "let get_val =\n",
  str! "  fun (some_val: Option Uint128) =>\n",
  str! "  match some_val with\n",
  str! "  | Some val => val\n",
  str! "  | None => zero\n",
  str! "  end\n",
  str! "\n",
  str! "(***************************************************)\n",
  str! "(*             The contract definition             *)\n",
  str! "(***************************************************)\n",
  str! "\n",
  str! "contract FungibleToken\n",
  str! "(\n",
  str! "  contract_owner: ByStr20,\n",
  str! "  name : String,\n",
  str! "  symbol: String,\n",
  str! "  decimals: Uint32,\n",
  str! "  init_supply : Uint128\n",
  str! ")\n",
  str! "\n",
  str! "(* Mutable fields *)\n",
  str! "\n",
  str! "field total_supply : Uint128 = init_supply\n",
  str! "\n",
  str! "field balances: Map ByStr20 Uint128 \n",
  str! "  = let emp_map = Emp ByStr20 Uint128 in\n",
  str! "    builtin put emp_map contract_owner init_supply\n",
  str! "\n",
  str! "field allowances: Map ByStr20 (Map ByStr20 Uint128) \n",
  str! "  = Emp ByStr20 (Map ByStr20 Uint128)\n",
  str! "\n",
  str! "(**************************************)\n",
  str! "(*             Procedures             *)\n",
  str! "(**************************************)\n",
  str! "\n",
  str! "procedure ThrowError(err : Error)\n",
  str! "  e = make_error err;\n",
  str! "  throw e\n",
  str! "end\n",
  str! "\n",
  str! "procedure IsNotSender(address: ByStr20)\n",
  str! "  is_sender = builtin eq _sender address;\n",
  str! "  match is_sender with\n",
  str! "  | True =>\n",
  str! "    err = CodeIsSender;\n",
  str! "    ThrowError err\n",
  str! "  | False =>\n",
  str! "  end\n",
  str! "end\n",
  str! "\n",
  str! "procedure AuthorizedMoveIfSufficientBalance(from: ByStr20, to: ByStr20, amount: Uint128)\n",
  str! "  o_from_bal <- balances[from];\n",
  str! "  bal = get_val o_from_bal;\n",
  str! "  can_do = uint128_le amount bal;\n",
  str! "  match can_do with\n",
  str! "  | True =>\n",
  str! "    (* Subtract amount from from and add it to to address *)\n",
  str! "    new_from_bal = builtin sub bal amount;\n",
  str! "    balances[from] := new_from_bal;\n",
  str! "    (* Adds amount to to address *)\n",
  str! "    get_to_bal <- balances[to];\n",
  str! "    new_to_bal = match get_to_bal with\n",
  str! "    | Some bal => builtin add bal amount\n",
  str! "    | None => amount\n",
  str! "    end;\n",
  str! "    balances[to] := new_to_bal\n",
  str! "  | False =>\n",
  str! "    (* Balance not sufficient *)\n",
  str! "    err = CodeInsufficientFunds;\n",
  str! "    ThrowError err\n",
  str! "  end\n",
  str! "end\n",
  str! "\n",
  str! "(***************************************)\n",
  str! "(*             Transitions             *)\n",
  str! "(***************************************)\n",
  str! "\n",
  str! "(* @dev: Increase the allowance of an approved_spender over the caller tokens. Only token_owner allowed to invoke.   *)\n",
  str! "(* param spender:      Address of the designated approved_spender.                                                   *)\n",
  str! "(* param amount:       Number of tokens to be increased as allowance for the approved_spender.                       *)\n",
  str! "transition IncreaseAllowance(spender: ByStr20, amount: Uint128)\n",
  str! "  IsNotSender spender;\n",
  str! "  some_current_allowance <- allowances[_sender][spender];\n",
  str! "  current_allowance = get_val some_current_allowance;\n",
  str! "  new_allowance = builtin add current_allowance amount;\n",
  str! "  allowances[_sender][spender] := new_allowance;\n",
  str! "  e = {_eventname : \"IncreasedAllowance\"; token_owner : _sender; spender: spender; new_allowance : new_allowance};\n",
  str! "  event e\n",
  str! "end\n",
  str! "\n",
  str! "(* @dev: Decrease the allowance of an approved_spender over the caller tokens. Only token_owner allowed to invoke. *)\n",
  str! "(* param spender:      Address of the designated approved_spender.                                                 *)\n",
  str! "(* param amount:       Number of tokens to be decreased as allowance for the approved_spender.                     *)\n",
  str! "transition DecreaseAllowance(spender: ByStr20, amount: Uint128)\n",
  str! "  IsNotSender spender;\n",
  str! "  some_current_allowance <- allowances[_sender][spender];\n",
  str! "  current_allowance = get_val some_current_allowance;\n",
  str! "  new_allowance =\n",
  str! "    let amount_le_allowance = uint128_le amount current_allowance in\n",
  str! "      match amount_le_allowance with\n",
  str! "      | True => builtin sub current_allowance amount\n",
  str! "      | False => zero\n",
  str! "      end;\n",
  str! "  allowances[_sender][spender] := new_allowance;\n",
  str! "  e = {_eventname : \"DecreasedAllowance\"; token_owner : _sender; spender: spender; new_allowance : new_allowance};\n",
  str! "  event e\n",
  str! "end\n",
  str! "\n",
  str! "(* @dev: Moves an amount tokens from _sender to the recipient. Used by token_owner. *)\n",
  str! "(* @dev: Balance of recipient will increase. Balance of _sender will decrease.      *)\n",
  str! "(* @param to:  Address of the recipient whose balance is increased.                 *)\n",
  str! "(* @param amount:     Amount of tokens to be sent.                                  *)\n",
  str! "transition Transfer(to: ByStr20, amount: Uint128)\n",
  str! "  AuthorizedMoveIfSufficientBalance _sender to amount;\n",
  str! "  e = {_eventname : \"TransferSuccess\"; sender : _sender; recipient : to; amount : amount};\n",
  str! "  event e;\n",
  str! "  (* Prevent sending to a contract address that does not support transfers of token *)\n",
  str! "  msg_to_recipient = {_tag : \"RecipientAcceptTransfer\"; _recipient : to; _amount : zero; \n",
  str! "                      sender : _sender; recipient : to; amount : amount};\n",
  str! "  msg_to_sender = {_tag : \"TransferSuccessCallBack\"; _recipient : _sender; _amount : zero; \n",
  str! "                  sender : _sender; recipient : to; amount : amount};\n",
  str! "  msgs = two_msgs msg_to_recipient msg_to_sender;\n",
  str! "  send msgs\n",
  str! "end\n",
  str! "\n",
  str! "(* We expect this call to revert entire transaction                                 *)\n",
  str! "(* @dev: Moves an amount tokens from _sender to the recipient. Used by token_owner. *)\n",
  str! "(* @dev: Balance of recipient will increase. Balance of _sender will decrease.      *)\n",
  str! "(* @param to:  Address of the recipient whose balance is increased.                 *)\n",
  str! "(* @param amount:     Amount of tokens to be sent.                                  *)\n",
  str! "transition TransferFailed(to: ByStr20, amount: Uint128)\n",
  str! "  AuthorizedMoveIfSufficientBalance _sender to amount;\n",
  str! "  e = {_eventname : \"TransferSuccess\"; sender : _sender; recipient : to; amount : amount};\n",
  str! "  event e;\n",
  str! "  (* Prevent sending to a contract address that does not support transfers of token *)\n",
  str! "  msg_to_recipient = {_tag : \"RecipientAcceptTransfer\"; _recipient : to; _amount : zero;\n",
  str! "                      sender : _sender; recipient : to; amount : amount; _EvmCall: \"foo\"};\n",
  str! "  msg_to_sender = {_tag : \"TransferSuccessCallBack\"; _recipient : _sender; _amount : zero;\n",
  str! "                  sender : _sender; recipient : to; amount : amount; _EvmCall: \"bar\"};\n",
  str! "  msgs = two_msgs msg_to_recipient msg_to_sender;\n",
  str! "  send msgs\n",
  str! "end\n",
  str! "\n",
  str! "(* @dev: Move a given amount of tokens from one address to another using the allowance mechanism. The caller must be an approved_spender. *)\n",
  str! "(* @dev: Balance of recipient will increase. Balance of token_owner will decrease.                                                        *)\n",
  str! "(* @param from:    Address of the token_owner whose balance is decreased.                                                                 *)\n",
  str! "(* @param to:      Address of the recipient whose balance is increased.                                                                   *)\n",
  str! "(* @param amount:  Amount of tokens to be transferred.                                                                                    *)\n",
  str! "transition TransferFrom(from: ByStr20, to: ByStr20, amount: Uint128)\n",
  str! "  o_spender_allowed <- allowances[from][_sender];\n",
  str! "  allowed = get_val o_spender_allowed;\n",
  str! "  can_do = uint128_le amount allowed;\n",
  str! "  match can_do with\n",
  str! "  | True =>\n",
  str! "    AuthorizedMoveIfSufficientBalance from to amount;\n",
  str! "    e = {_eventname : \"TransferFromSuccess\"; initiator : _sender; sender : from; recipient : to; amount : amount};\n",
  str! "    event e;\n",
  str! "    new_allowed = builtin sub allowed amount;\n",
  str! "    allowances[from][_sender] := new_allowed;\n",
  str! "    (* Prevent sending to a contract address that does not support transfers of token *)\n",
  str! "    msg_to_recipient = {_tag: \"RecipientAcceptTransferFrom\"; _recipient : to; _amount: zero; \n",
  str! "                        initiator: _sender; sender : from; recipient: to; amount: amount};\n",
  str! "    msg_to_sender = {_tag: \"TransferFromSuccessCallBack\"; _recipient: _sender; _amount: zero; \n",
  str! "                    initiator: _sender; sender: from; recipient: to; amount: amount};\n",
  str! "    msgs = two_msgs msg_to_recipient msg_to_sender;\n",
  str! "    send msgs\n",
  str! "  | False =>\n",
  str! "    err = CodeInsufficientAllowance;\n",
  str! "    ThrowError err\n",
  str! "  end\n",
  str! "end\n"]

/-- full_contract_tests.rs: the contract it must give -/
example : fromStr demoEnv docFungibleToken = .ok ⟨(str! "FungibleToken"),
    [⟨(str! "contract_owner"), .byStr20⟩, ⟨(str! "name"), .string⟩, ⟨(str! "symbol"), .string⟩, ⟨(str! "decimals"), .uint32⟩, ⟨(str! "init_supply"), .uint128⟩],
    [⟨(str! "total_supply"), .uint128⟩, ⟨(str! "balances"), (.map .byStr20 .uint128)⟩, ⟨(str! "allowances"), (.map .byStr20 (.map .byStr20 .uint128))⟩],
    [⟨(str! "IncreaseAllowance"), [⟨(str! "spender"), .byStr20⟩, ⟨(str! "amount"), .uint128⟩]⟩, ⟨(str! "DecreaseAllowance"), [⟨(str! "spender"), .byStr20⟩, ⟨(str! "amount"), .uint128⟩]⟩, ⟨(str! "Transfer"), [⟨(str! "to"), .byStr20⟩, ⟨(str! "amount"), .uint128⟩]⟩, ⟨(str! "TransferFailed"), [⟨(str! "to"), .byStr20⟩, ⟨(str! "amount"), .uint128⟩]⟩, ⟨(str! "TransferFrom"), [⟨(str! "from"), .byStr20⟩, ⟨(str! "to"), .byStr20⟩, ⟨(str! "amount"), .uint128⟩]⟩]⟩ := by
  decide +kernel

/-- tests/contracts/SetGet.scilla -/
def docSetGet : Str := List.flatten [
  str! "scilla_version 0\n",
  str! "(***************************************************)\n",
  str! "(*               Basic setter and getter           *)\n",
  str! "(***************************************************)\n",
  str! "contract SetGet\n",
  str! "()\n",
  str! "field value: Uint128 = Uint128 0\n",
  str! "field string_value: String = \"test\"\n",
  str! "field address_value: ByStr20 = 0x1234567890123456789012345678901234567890\n",
  str! "field option_bystr20: Option ByStr20 = None {ByStr20}\n",
  str! "\n",
  str! "transition set_uint128(v : Uint128)\n",
  str! "  value := v\n",
  str! "end\n",
  str! "\n",
  str! "transition emit()\n",
  str! "  v <- value;\n",
  str! "  ev = {_eventname: \"Emit\"; sender: _sender; value: v};\n",
  str! "  event ev\n",
  str! "end\n",
  str! "\n",
  str! "transition set_string(v : String)\n",
  str! "  string_value := v\n",
  str! "end\n",
  str! "\n",
  str! "transition get_string()\n",
  str! "  v <- string_value;\n",
  str! "  ev = {_eventname: \"get_string\"; sender: _sender; value: v};\n",
  str! "  event ev\n",
  str! "end\n",
  str! "\n",
  str! "transition set_address(v : ByStr20)\n",
  str! "  address_value := v\n",
  str! "end\n",
  str! "\n",
  str! "transition get_address()\n",
  str! "  v <- address_value;\n",
  str! "  ev = {_eventname: \"get_address\"; sender: _sender; value: v};\n",
  str! "  event ev\n",
  str! "end\n",
  str! "\n",
  str! "transition set_option_bystr20(v : (Option ByStr20))\n",
  str! "    option_bystr20 := v\n",
  str! "end"]

/-- full_contract_tests.rs, test_parse: it must be accepted -/
example : (fromStr demoEnv docSetGet).isOk = true := by
  decide +kernel

end Verif
