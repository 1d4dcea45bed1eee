import Verif.Conformance.Basic
/-
Generated by tools/conformance.py from /repo/tests/full_contract_tests.rs and /repo/tests/contracts: the contracts of
the project's own tests (but the three largest), evaluated on the model.  (Validation of the model, not proofs of
properties.)
-/
set_option maxRecDepth 100000
namespace Verif

/-- tests/contracts/ZRC1.scilla -/
def docZRC1 : Str := List.flatten [
  str! "scilla_version 0\n",
  str! "\n",
  str! "(***************************************************)\n",
  str! "(*               Associated library                *)\n",
  str! "(***************************************************)\n",
  str! "import BoolUtils PairUtils ListUtils\n",
  str! "library NonfungibleToken\n",
  str! "\n",
  str! "(* User-defined ADTs *)\n",
  str! "type Dummy =\n",
  str! "| Dummy\n",
  str! "\n",
  str! "type Operation =\n",
  str! "| Add\n",
  str! "| Sub\n",
  str! "\n",
  str! "(* Global variables *)\n",
  str! "let zero = Uint256 0\n",
  str! "let one = Uint256 1\n",
  str! "let verdad = Dummy\n",
  str! "let add_operation = Add\n",
  str! "let sub_operation = Sub\n",
  str! "\n",
  str! "(* Library functions *)\n",
  str! "let one_msg = \n",
  str! "  fun (msg : Message) => \n",
  str! "    let nil_msg = Nil {Message} in\n",
  str! "    Cons {Message} msg nil_msg\n",
  str! "\n",
  str! "let two_msgs =\n",
  str! "  fun (msg1 : Message) =>\n",
  str! "  fun (msg2 : Message) =>\n",
  str! "    let msgs_tmp = one_msg msg2 in\n",
  str! "    Cons {Message} msg1 msgs_tmp\n",
  str! "\n",
  str! "let get_bal =\n",
  str! "  fun (some_bal: Option Uint256) =>\n",
  str! "    match some_bal with\n",
  str! "    | Some bal => bal\n",
  str! "    | None => zero\n",
  str! "    end\n",
  str! "\n",
  str! "let build_pair =\n",
  str! "  fun (input_to_address : ByStr20) =>\n",
  str! "  fun (input_token_uri : String) =>\n",
  str! "    Pair {ByStr20 String} input_to_address input_token_uri\n",
  str! "\n",
  str! "(* Error exception *)\n",
  str! "type Error =\n",
  str! "  | CodeNotContractOwner\n",
  str! "  | CodeIsSelf\n",
  str! "  | CodeTokenExists\n",
  str! "  | CodeIsNotMinter\n",
  str! "  | CodeNotApproved\n",
  str! "  | CodeNotTokenOwner\n",
  str! "  | CodeNotFound\n",
  str! "  | CodeNotApprovedForAll\n",
  str! "  | CodeNotOwnerOrOperator\n",
  str! "  | CodeNotApprovedSpenderOrOperator\n",
  str! "\n",
  str! "let make_error =\n",
  str! "  fun (result : Error) =>\n",
  str! "    let result_code = \n",
  str! "      match result with\n",
  str! "      | CodeNotContractOwner             => Int32 -1\n",
  str! "      | CodeIsSelf                       => Int32 -2\n",
  str! "      | CodeTokenExists                  => Int32 -3\n",
  str! "      | CodeIsNotMinter                  => Int32 -4\n",
  str! "      | CodeNotApproved                  => Int32 -5\n",
  str! "      | CodeNotTokenOwner                => Int32 -6\n",
  str! "      | CodeNotFound                     => Int32 -7\n",
  str! "      | CodeNotApprovedForAll            => Int32 -8\n",
  str! "      | CodeNotOwnerOrOperator           => Int32 -9\n",
  str! "      | CodeNotApprovedSpenderOrOperator => Int32 -10\n",
  str! "      end\n",
  str! "    in\n",
  str! "    { _exception : \"Error\"; code : result_code }\n",
  str! "\n",
  str! "(***************************************************)\n",
  str! "(*             The contract definition             *)\n",
  str! "(***************************************************)\n",
  str! "\n",
  str! "contract NonfungibleToken\n",
  str! "(\n",
  str! "  contract_owner: ByStr20,\n",
  str! "  name : String,\n",
  str! "  symbol: String\n",
  str! ")\n",
  str! "\n",
  str! "(* Mutable fields *)\n",
  str! "\n",
  str! "(* Mapping of minters available *)\n",
  str! "field minters: Map ByStr20 Dummy =\n",
  str! "    let emp_map = Emp ByStr20 Dummy in\n",
  str! "    builtin put emp_map contract_owner verdad\n",
  str! "\n",
  str! "(* Mapping between token_id to token_owner *)\n",
  str! "field token_owners: Map Uint256 ByStr20 = Emp Uint256 ByStr20\n",
  str! "\n",
  str! "(* Mapping from owner to number of owned tokens *)\n",
  str! "field owned_token_count: Map ByStr20 Uint256 = Emp ByStr20 Uint256\n",
  str! "\n",
  str! "(* Mapping between token_id to approved address                              *)\n",
  str! "(* @dev: There can only be one approved address per token at any given time. *)\n",
  str! "field token_approvals: Map Uint256 ByStr20 = Emp Uint256 ByStr20\n",
  str! "\n",
  str! "(* Mapping of token_owner to operator  *)\n",
  str! "field operator_approvals: Map ByStr20 (Map ByStr20 Dummy)\n",
  str! "                            = Emp ByStr20 (Map ByStr20 Dummy)\n",
  str! "\n",
  str! "(* Mapping from token_id to token_uri *)\n",
  str! "field token_uris: Map Uint256 String = Emp Uint256 String\n",
  str! "\n",
  str! "(* Total token count *)\n",
  str! "field total_supply: Uint256 = Uint256 0\n",
  str! "\n",
  str! "(* Used token id *)\n",
  str! "field token_id_count: Uint256 = Uint256 0\n",
  str! "\n",
  str! "\n",
  str! "(* Emit Errors *)\n",
  str! "procedure ThrowError(err : Error)\n",
  str! "  e = make_error err;\n",
  str! "  throw e\n",
  str! "end\n",
  str! "\n",
  str! "procedure IsContractOwner()\n",
  str! "  is_contract_owner = builtin eq contract_owner _sender;\n",
  str! "  match is_contract_owner with\n",
  str! "  | True => \n",
  str! "  | False =>\n",
  str! "    err = CodeNotContractOwner;\n",
  str! "    ThrowError err\n",
  str! "  end\n",
  str! "end\n",
  str! "\n",
  str! "procedure IsSelf(address_a: ByStr20, address_b: ByStr20)\n",
  str! "  is_self = builtin eq address_a address_b;\n",
  str! "  match is_self with\n",
  str! "  | False =>\n",
  str! "  | True =>\n",
  str! "    err = CodeIsSelf;\n",
  str! "    ThrowError err\n",
  str! "  end\n",
  str! "end\n",
  str! "\n",
  str! "procedure IsTokenExists(token_id: Uint256)\n",
  str! "  token_exist <- exists token_owners[token_id];\n",
  str! "  match token_exist with\n",
  str! "  | False =>\n",
  str! "  | True =>\n",
  str! "    err = CodeTokenExists;\n",
  str! "    ThrowError err\n",
  str! "  end\n",
  str! "end\n",
  str! "\n",
  str! "procedure IsMinter(address: ByStr20)\n",
  str! "  is_minter <- exists minters[address];\n",
  str! "  match is_minter with\n",
  str! "  | True =>\n",
  str! "  | False =>\n",
  str! "    err = CodeIsNotMinter;\n",
  str! "    ThrowError err\n",
  str! "  end\n",
  str! "end\n",
  str! "\n",
  str! "procedure IsTokenOwner(token_id: Uint256, address: ByStr20)\n",
  str! "  some_token_owner <- token_owners[token_id];\n",
  str! "  match some_token_owner with\n",
  str! "  | Some addr => \n",
  str! "    is_token_owner = builtin eq addr address;\n",
  str! "    match is_token_owner with\n",
  str! "    | True =>\n",
  str! "    | False =>\n",
  str! "      err = CodeNotTokenOwner;\n",
  str! "      ThrowError err\n",
  str! "    end\n",
  str! "  | None =>\n",
  str! "    err = CodeNotFound;\n",
  str! "    ThrowError err\n",
  str! "  end\n",
  str! "end\n",
  str! "\n",
  str! "procedure IsApprovedForAll(token_owner: ByStr20, operator: ByStr20)\n",
  str! "  is_operator_approved <- exists operator_approvals[token_owner][operator];\n",
  str! "  match is_operator_approved with\n",
  str! "  | True =>\n",
  str! "  | False =>\n",
  str! "    err = CodeNotApprovedForAll;\n",
  str! "    ThrowError err\n",
  str! "  end\n",
  str! "end\n",
  str! "\n",
  str! "procedure IsOwnerOrOperator(token_owner: ByStr20)\n",
  str! "  is_owner = builtin eq _sender token_owner;\n",
  str! "  is_approved_for_all <- exists operator_approvals[token_owner][_sender];\n",
  str! "  is_authorised = orb is_owner is_approved_for_all;\n",
  str! "  match is_authorised with\n",
  str! "  | True =>\n",
  str! "  | False =>\n",
  str! "    err = CodeNotOwnerOrOperator;\n",
  str! "    ThrowError err\n",
  str! "  end\n",
  str! "end\n",
  str! "\n",
  str! "procedure IsApprovedSpenderOrOperator(token_id: Uint256, token_owner: ByStr20)\n",
  str! "  some_token_approval <- token_approvals[token_id];\n",
  str! "  is_approved = match some_token_approval with\n",
  str! "    | None => False\n",
  str! "    | Some approved_address => \n",
  str! "      builtin eq _sender approved_address\n",
  str! "    end;\n",
  str! "  is_operator <- exists operator_approvals[token_owner][_sender];\n",
  str! "  is_authorised = orb is_approved is_operator;\n",
  str! "  match is_authorised with\n",
  str! "  | True =>\n",
  str! "  | False =>\n",
  str! "    err = CodeNotApprovedSpenderOrOperator;\n",
  str! "    ThrowError err\n",
  str! "  end\n",
  str! "end\n",
  str! "\n",
  str! "procedure UpdateTokenCount(operation: Operation, address: ByStr20)\n",
  str! "  match operation with\n",
  str! "  | Add =>\n",
  str! "    some_to_count <- owned_token_count[address];\n",
  str! "    new_to_count = \n",
  str! "      let current_count = get_bal some_to_count in\n",
  str! "      builtin add current_count one;\n",
  str! "    owned_token_count[address] := new_to_count\n",
  str! "  | Sub =>\n",
  str! "    some_from_count <- owned_token_count[address];\n",
  str! "    new_from_count = \n",
  str! "      let current_count = get_bal some_from_count in\n",
  str! "        let is_zero = builtin eq current_count zero in\n",
  str! "          match is_zero with\n",
  str! "          | True => zero\n",
  str! "          | False => builtin sub current_count one\n",
  str! "          end;\n",
  str! "    owned_token_count[address] := new_from_count\n",
  str! "  end\n",
  str! "end\n",
  str! "\n",
  str! "(* Getter transitions *)\n",
  str! "\n",
  str! "(* @dev: Get number of NFTs assigned to a token_owner *)\n",
  str! "transition BalanceOf(address: ByStr20)\n",
  str! "  some_bal <- owned_token_count[address];\n",
  str! "  balance = get_bal some_bal;\n",
  str! "  msg_to_sender = { _tag : \"BalanceOfCallBack\"; _recipient : _sender; _amount : Uint128 0;\n",
  str! "                   balance : balance};\n",
  str! "  msgs = one_msg msg_to_sender;\n",
  str! "  send msgs\n",
  str! "end\n",
  str! "\n",
  str! "(* @dev: Get total supply of NFTs minted *)\n",
  str! "transition TotalSupply()\n",
  str! "  current_supply <- total_supply;\n",
  str! "  msg_to_sender = { _tag : \"TotalSupplyCallBack\"; _recipient : _sender; _amount : Uint128 0;\n",
  str! "                   total_supply : current_supply};\n",
  str! "  msgs = one_msg msg_to_sender;\n",
  str! "  send msgs\n",
  str! "end\n",
  str! "\n",
  str! "(* @dev: Get name of the NFTs *)\n",
  str! "transition Name()\n",
  str! "  msg_to_sender = { _tag : \"NameCallBack\"; _recipient : _sender; _amount : Uint128 0;\n",
  str! "                   name : name};\n",
  str! "  msgs = one_msg msg_to_sender;\n",
  str! "  send msgs\n",
  str! "end\n",
  str! "\n",
  str! "(* @dev: Get name of the NFTs *)\n",
  str! "transition Symbol()\n",
  str! "  msg_to_sender = { _tag : \"SymbolCallBack\"; _recipient : _sender; _amount : Uint128 0;\n",
  str! "                   symbol : symbol};\n",
  str! "  msgs = one_msg msg_to_sender;\n",
  str! "  send msgs\n",
  str! "end\n",
  str! "\n",
  str! "(* @dev: Get approved_addr for token_id *)\n",
  str! "transition GetApproved(token_id: Uint256)\n",
  str! "  some_token_approval <- token_approvals[token_id];\n",
  str! "  match some_token_approval with\n",
  str! "  | Some addr => \n",
  str! "    msg_to_sender = { _tag : \"GetApprovedCallBack\"; _recipient : _sender; _amount : Uint128 0; \n",
  str! "                      approved_addr : addr; token_id : token_id};\n",
  str! "    msgs = one_msg msg_to_sender;\n",
  str! "    send msgs\n",
  str! "  | None => \n",
  str! "    err = CodeNotApproved;\n",
  str! "    ThrowError err\n",
  str! "  end\n",
  str! "end\n",
  str! "\n",
  str! "(* @dev: Get the token_uri of a certain token_id *)\n",
  str! "transition GetTokenURI(token_id: Uint256)\n",
  str! "  some_token_uri <- token_uris[token_id];\n",
  str! "  match some_token_uri with\n",
  str! "  | Some token_uri =>\n",
  str! "    msg_to_sender = { _tag : \"GetTokenURICallBack\"; _recipient : _sender; _amount : Uint128 0; \n",
  str! "                      token_uri : token_uri};\n",
  str! "    msgs = one_msg msg_to_sender;\n",
  str! "    send msgs\n",
  str! "  | None =>\n",
  str! "    err = CodeNotFound;\n",
  str! "    ThrowError err\n",
  str! "  end\n",
  str! "end\n",
  str! "\n",
  str! "(* @dev: Check if a token_id is owned by a token_owner *)\n",
  str! "transition CheckTokenOwner(token_id: Uint256, address: ByStr20)\n",
  str! "  IsTokenOwner token_id address;\n",
  str! "  msg_to_sender = { _tag : \"IsTokenOwnerCallBack\"; _recipient : _sender; _amount : Uint128 0};\n",
  str! "  msgs = one_msg msg_to_sender;\n",
  str! "  send msgs\n",
  str! "end\n",
  str! "\n",
  str! "(* @dev: Check if address is operator for token_owner *)\n",
  str! "transition CheckApprovedForAll(token_owner: ByStr20, operator: ByStr20)\n",
  str! "  IsApprovedForAll token_owner operator;\n",
  str! "  msg_to_sender = { _tag : \"IsApprovedForAllCallBack\"; _recipient : _sender; _amount : Uint128 0;\n",
  str! "                    token_owner : token_owner; operator : operator};\n",
  str! "  msgs = one_msg msg_to_sender;\n",
  str! "  send msgs\n",
  str! "end\n",
  str! "\n",
  str! "(* Interface transitions *)\n",
  str! "\n",
  str! "(* @dev:    Add or remove approved minters. Only contract_owner can approve minters. *)\n",
  str! "(* @param:  minter      - Address of the minter to be approved or removed            *)\n",
  str! "transition ConfigureMinter(minter: ByStr20)\n",
  str! "  IsContractOwner;\n",
  str! "  some_minter <- minters[minter];\n",
  str! "  match some_minter with\n",
  str! "  | Some Dummy => \n",
  str! "    (* Remove minter *)\n",
  str! "    delete minters[minter];\n",
  str! "    e = {_eventname: \"RemovedMinterSuccess\"; minter: minter};\n",
  str! "    event e\n",
  str! "  | None =>\n",
  str! "    (* Add minter *)\n",
  str! "    minters[minter] := verdad;\n",
  str! "    e = {_eventname: \"AddMinterSuccess\"; minter: minter};\n",
  str! "    event e\n",
  str! "  end\n",
  str! "end\n",
  str! "\n",
  str! "procedure Minting(input_pair: Pair ByStr20 String)\n",
  str! "  to = let fst_string_bystr20 = @fst ByStr20 String in\n",
  str! "    fst_string_bystr20 input_pair;\n",
  str! "  token_uri = let snd_string_bystr20 = @snd ByStr20 String in\n",
  str! "    snd_string_bystr20 input_pair;\n",
  str! "  IsMinter _sender;\n",
  str! "  (* Add to owner count *)\n",
  str! "  UpdateTokenCount add_operation to;\n",
  str! "  (* Add to total_supply *)\n",
  str! "  current_supply <- total_supply;\n",
  str! "  new_supply = builtin add current_supply one;\n",
  str! "  total_supply := new_supply;\n",
  str! "  (* Initiate token_id and check if exists *)\n",
  str! "  current_token_id_count <- token_id_count;\n",
  str! "  new_token_id_count = builtin add current_token_id_count one;\n",
  str! "  token_id_count := new_token_id_count;\n",
  str! "  token_id = new_token_id_count;\n",
  str! "  IsTokenExists token_id;\n",
  str! "  (* Mint new non-fungible token *)\n",
  str! "  token_owners[token_id] := to;\n",
  str! "  (* Add token_uri for token_id *)\n",
  str! "  token_uris[token_id] := token_uri;\n",
  str! "  e = {_eventname: \"MintSuccess\"; by: _sender; recipient: to;\n",
  str! "        token_id: token_id; token_uri: token_uri};\n",
  str! "  event e\n",
  str! "end\n",
  str! "\n",
  str! "(* @dev:    Mint new tokens. Only minters can mint.           *)\n",
  str! "(* @param:  to        - Address of the token recipient        *)\n",
  str! "(* @param:  token_uri - URI of the the new token to be minted *)\n",
  str! "transition Mint(to: ByStr20, token_uri: String)\n",
  str! "  input_pair = build_pair to token_uri;\n",
  str! "  Minting input_pair;\n",
  str! "  token_id <- token_id_count;\n",
  str! "  msg_to_recipient = { _tag : \"RecipientAcceptMint\"; _recipient : to; _amount : Uint128 0 };\n",
  str! "  msg_to_sender = { _tag : \"MintCallBack\"; _recipient : _sender; _amount : Uint128 0;\n",
  str! "                    recipient : _sender; token_id : token_id; token_uri : token_uri };\n",
  str! "  msgs = two_msgs msg_to_recipient msg_to_sender;\n",
  str! "  send msgs\n",
  str! "end\n",
  str! "\n",
  str! "(* @dev:    Mint multiple new tokens at once. Only minters can mint. *)\n",
  str! "(* @param:  to_list         - Addressses of the token recipient      *)\n",
  str! "(* @param:  token_uris_list - URIs of the the new token to be minted *)\n",
  str! "transition BatchMint(to_list: List ByStr20, token_uris_list: List String)\n",
  str! "  pair_two_list = @list_zip ByStr20 String;\n",
  str! "  input_list = pair_two_list to_list token_uris_list;\n",
  str! "  forall input_list Minting;\n",
  str! "  msg_to_sender = { _tag : \"BatchMintCallback\"; _recipient : _sender; _amount : Uint128 0 };\n",
  str! "  msgs = one_msg msg_to_sender;\n",
  str! "  send msgs\n",
  str! "end\n",
  str! "\n",
  str! "\n",
  str! "(* @dev:    Burn existing tokens. Only token_owner or an operator can burn a NFT. *)\n",
  str! "(* @param:  token_id - Unique ID of the NFT to be destroyed                       *)\n",
  str! "transition Burn(token_id: Uint256)\n",
  str! "  (* Check if token exists *)\n",
  str! "  some_token_owner <- token_owners[token_id];\n",
  str! "  match some_token_owner with\n",
  str! "  | None =>\n",
  str! "    err = CodeNotFound;\n",
  str! "    ThrowError err\n",
  str! "  | Some token_owner =>\n",
  str! "    IsOwnerOrOperator token_owner;\n",
  str! "    (* Destroy existing token *)\n",
  str! "    delete token_owners[token_id];\n",
  str! "    delete token_approvals[token_id];\n",
  str! "    delete token_uris[token_id];\n",
  str! "    (* Deduct from owned_token_count *)\n",
  str! "    UpdateTokenCount sub_operation token_owner;\n",
  str! "    (* Deduct from total_supply *)\n",
  str! "    current_supply <- total_supply;\n",
  str! "    new_supply = builtin sub current_supply one;\n",
  str! "    total_supply := new_supply;\n",
  str! "    e = {_eventname: \"BurnSuccess\"; initiator: _sender; burn_address: token_owner; token_id: token_id};\n",
  str! "    event e;\n",
  str! "    msg_to_sender = { _tag : \"BurnCallBack\"; _recipient : _sender; _amount : Uint128 0;\n",
  str! "                      initiator : _sender; burn_address : token_owner; token_id : token_id };\n",
  str! "    msgs = one_msg msg_to_sender;\n",
  str! "    send msgs\n",
  str! "  end\n",
  str! "end\n",
  str! "\n",
  str! "\n",
  str! "(* @dev: Approves OR remove an address ability to transfer a given token_id *)\n",
  str! "(* There can only be one approved_spender per token at any given time       *)\n",
  str! "(* param: to       - Address to be approved for the given token_id          *)\n",
  str! "(* param: token_id - Unique ID of the NFT to be approved                    *)\n",
  str! "transition SetApprove(to: ByStr20, token_id: Uint256)\n",
  str! "  some_token_owner <- token_owners[token_id];\n",
  str! "  match some_token_owner with\n",
  str! "  | None =>\n",
  str! "    err = CodeNotFound;\n",
  str! "    ThrowError err\n",
  str! "  | Some token_owner =>\n",
  str! "    IsOwnerOrOperator token_owner;\n",
  str! "    is_approved <- token_approvals[token_id];\n",
  str! "    match is_approved with\n",
  str! "    | Some approved_spender =>\n",
  str! "      (* Remove approved_spender *)\n",
  str! "      is_approved_spender = builtin eq to approved_spender;\n",
  str! "      match is_approved_spender with\n",
  str! "      | True =>\n",
  str! "        delete token_approvals[token_id];\n",
  str! "        e = {_eventname: \"RemoveApprovalSuccess\"; initiator: _sender; removed_spender: to; token_id: token_id};\n",
  str! "        event e;\n",
  str! "        msg_to_sender = { _tag : \"RemoveApprovalSuccessCallBack\"; _recipient : _sender; _amount : Uint128 0; \n",
  str! "                          removed_spender : to; token_id : token_id };\n",
  str! "        msgs = one_msg msg_to_sender;\n",
  str! "        send msgs\n",
  str! "      | False =>\n",
  str! "        err = CodeNotApproved;\n",
  str! "        ThrowError err\n",
  str! "      end\n",
  str! "    | None =>\n",
  str! "      (* Add approved_spender *)\n",
  str! "      token_approvals[token_id] := to;\n",
  str! "      e = {_eventname: \"AddApprovalSuccess\"; initiator: _sender; approved_spender: to; token_id: token_id};\n",
  str! "      event e;\n",
  str! "      msg_to_sender = { _tag : \"AddApprovalSuccessCallBack\"; _recipient : _sender; _amount : Uint128 0; \n",
  str! "                        approved_spender : to; token_id : token_id };\n",
  str! "      msgs = one_msg msg_to_sender;\n",
  str! "      send msgs\n",
  str! "    end\n",
  str! "  end\n",
  str! "end\n",
  str! "\n",
  str! "(* @dev: Sets or unsets an operator for the _sender       *)\n",
  str! "(* @param: to - Address to be set or unset as an operator *)\n",
  str! "transition SetApprovalForAll(to: ByStr20)\n",
  str! "  IsSelf to _sender;\n",
  str! "  is_operator <- exists operator_approvals[_sender][to];\n",
  str! "  match is_operator with\n",
  str! "  | False =>\n",
  str! "    (* Add operator *)\n",
  str! "    operator_approvals[_sender][to] := verdad;\n",
  str! "    e = {_eventname: \"AddApprovalForAllSuccess\"; initiator: _sender; operator: to};\n",
  str! "    event e\n",
  str! "  | True =>\n",
  str! "    (* Remove operator *)\n",
  str! "    delete operator_approvals[_sender][to];\n",
  str! "    e = {_eventname: \"RemoveApprovalForAllSuccess\"; initiator: _sender; operator: to};\n",
  str! "    event e\n",
  str! "  end;\n",
  str! "  new_status = negb is_operator;\n",
  str! "  msg_to_sender = { _tag : \"SetApprovalForAllSuccessCallBack\"; _recipient : _sender; _amount : Uint128 0; \n",
  str! "                    operator : to; status : new_status};\n",
  str! "  msgs = one_msg msg_to_sender;\n",
  str! "  send msgs\n",
  str! "end\n",
  str! "\n",
  str! "(* @dev: Transfer the ownership of a given token_id to another address. token_owner only transition. *)\n",
  str! "(* @param: to       - Recipient address for the token                                                *)\n",
  str! "(* @param: token_id - Unique ID of the NFT to be transferred                                         *)\n",
  str! "transition Transfer(to: ByStr20, token_id: Uint256)\n",
  str! "  IsSelf to _sender;\n",
  str! "  IsTokenOwner token_id _sender;\n",
  str! "  (* Change token_owner for that token_id *)\n",
  str! "  token_owners[token_id] := to;\n",
  str! "  (* Delete tokenApproval entry for that token_id *)\n",
  str! "  delete token_approvals[token_id];\n",
  str! "  (* Subtract one from previous token owner count *)\n",
  str! "  UpdateTokenCount sub_operation _sender;\n",
  str! "  (* Add one to the new token owner count *)\n",
  str! "  UpdateTokenCount add_operation to;\n",
  str! "  e = {_eventname: \"TransferSuccess\"; from: _sender; recipient: to; token_id: token_id};\n",
  str! "  event e;\n",
  str! "  msg_to_recipient = { _tag : \"RecipientAcceptTransfer\"; _recipient : to; _amount : Uint128 0; \n",
  str! "                      from : _sender; recipient : to; token_id : token_id };\n",
  str! "  msg_to_sender = { _tag : \"TransferSuccessCallBack\"; _recipient : _sender; _amount : Uint128 0; \n",
  str! "                    from : _sender; recipient : to; token_id : token_id };\n",
  str! "  msgs = two_msgs msg_to_recipient msg_to_sender;\n",
  str! "  send msgs\n",
  str! "end\n",
  str! "\n",
  str! "(* @dev: Transfer the ownership of a given token_id to another address. approved_spender or operator only transition. *)\n",
  str! "(* @param: to       - Recipient address for the NFT                                                                   *)\n",
  str! "(* @param: token_id - Unique ID of the NFT to be transferred                                                          *)\n",
  str! "transition TransferFrom(to: ByStr20, token_id: Uint256)\n",
  str! "  some_token_owner <- token_owners[token_id];\n",
  str! "  match some_token_owner with\n",
  str! "  | None =>\n",
  str! "    err = CodeNotFound;\n",
  str! "    ThrowError err\n",
  str! "  | Some token_owner =>\n",
  str! "    IsSelf to token_owner;\n",
  str! "    IsApprovedSpenderOrOperator token_id token_owner;\n",
  str! "    (* Change token_owner for that token_id *)\n",
  str! "    token_owners[token_id] := to;\n",
  str! "    (* Delete tokenApproval entry for that token_id *)\n",
  str! "    delete token_approvals[token_id];\n",
  str! "    (* Subtract one from previous token owner count *)\n",
  str! "    UpdateTokenCount sub_operation token_owner;\n",
  str! "    (* Add one to the new token owner count *)\n",
  str! "    UpdateTokenCount add_operation to;\n",
  str! "    e = {_eventname: \"TransferFromSuccess\"; from: token_owner; recipient: to; token_id: token_id};\n",
  str! "    event e;\n",
  str! "    msg_to_recipient = { _tag : \"RecipientAcceptTransferFrom\"; _recipient : to; _amount : Uint128 0; \n",
  str! "                        from : token_owner; recipient : to; token_id : token_id };\n",
  str! "    msg_to_sender = { _tag : \"TransferFromSuccessCallBack\"; _recipient : _sender; _amount : Uint128 0; \n",
  str! "                      from : token_owner; recipient : to; token_id : token_id };\n",
  str! "    msgs = two_msgs msg_to_recipient msg_to_sender;\n",
  str! "    send msgs\n",
  str! "  end\n",
  str! "end\n"]

/-- full_contract_tests.rs, test_parse: it must be accepted -/
example : (fromStr demoEnv docZRC1).isOk = true := by
  decide +kernel

end Verif
