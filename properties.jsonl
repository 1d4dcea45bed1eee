{"id": "C01", "title": "Lexing always terminates and makes progress", "statement": "Draining the lexer over any document ends after finitely many calls, with the end of the stream or with a panic, and the outcome is determined by the document: every item it yields consumes at least one further character, so it yields at most as many tokens as the document has characters; the stream ends only when nothing but whitespace and comments is left; and once it has returned nothing it goes on returning nothing.", "quantifier": "every document (any string, any length)", "why_tests_cant": "a test can only drain finitely many documents; a non-progressing branch would hang on some untested input", "anchors": ["src/parser/lexer.rs: Lexer::next"]}
{"id": "C02", "title": "Lexing an ASCII document never panics", "statement": "For every document consisting of ASCII characters, draining the lexer never panics; more generally it never panics on a document all of whose alphanumeric characters are ASCII, whatever other non-ASCII characters it contains.", "quantifier": "every such document", "why_tests_cant": "slice-boundary panics depend on the exact characters around every position", "anchors": ["src/parser/lexer.rs: Lexer::next (token_str slicing)"]}
{"id": "C03", "title": "Lexing an arbitrary UTF-8 document may panic: exactly when", "statement": "The lexer panics at a position exactly when the character there starts no fixed token, some character of the remaining text is neither alphanumeric nor `_`, and the character count of the leading run of alphanumeric/underscore characters, taken as a byte offset, is not a character boundary of the remaining text; draining a document panics exactly when such a position is reached. In particular `é;` panics, so 'lexing never panics' is false for non-ASCII text.", "quantifier": "every document and lexer position, every classification of non-ASCII characters", "why_tests_cant": "needs the exact panic set over all strings", "anchors": ["src/parser/lexer.rs: Lexer::next lines 368-382"]}
{"id": "C04", "title": "Token spans are in bounds, non-empty and strictly increasing", "statement": "For every document, the byte spans of the tokens yielded (up to the end of the document, or up to a panic) satisfy start <= end (start < end unless the token is Unknown), every end lies within the document, and each token starts at or after the end of every earlier token and strictly after its start.", "quantifier": "every document, every pair of tokens", "why_tests_cant": "must hold for every token pair of every document", "anchors": ["src/parser/lexer.rs: Lexer::next", "src/parser/lexer.rs: SourcePosition::with_end"]}
{"id": "C05", "title": "A token's text is exactly the source text of its span", "statement": "For every token other than Unknown yielded from a document (also if the lexer panics later on), converting the token to a String gives exactly the slice of the document between the token's start and end byte offsets, and those offsets are character boundaries.", "quantifier": "every document, every token", "why_tests_cant": "every lexeme class and every position must be covered", "anchors": ["src/parser/lexer.rs: Lexer::next", "src/parser/lexer.rs: From<Token<S>> for String"]}
{"id": "C06", "title": "Nothing but layout is dropped between tokens", "statement": "For every ASCII document the text is exactly the concatenation of token texts interleaved with layout (whitespace characters and comments) and the single characters reported as Unknown: no other character is silently skipped. For non-ASCII documents this is false: a string literal containing a multi-byte character swallows the characters after it. For every document the exact statement is proved: nothing else is dropped, and after a string literal exactly as many characters are lost as it has more bytes than characters.", "quantifier": "every ASCII document; a concrete non-ASCII witness for the failure", "why_tests_cant": "the lexer could silently skip characters in any context", "anchors": ["src/parser/lexer.rs: Lexer::next (self.chars.nth(end - start - 2))"]}
{"id": "C07", "title": "Keywords are reserved", "statement": "In an ASCII document no identifier token (regular, custom or special) ever has the spelling of one of the 28 reserved words. In every document, a reserved word at a position of the lexer that is not directly followed by an identifier character yields that word's token, with the right span. Outside ASCII reserved words are not reserved: `endé` at the end of a document yields the identifier `end`.", "quantifier": "every ASCII document and token; every document and position", "why_tests_cant": "keyword recognition depends on all following text", "anchors": ["src/parser/lexer.rs: Lexer::next keyword match"]}
{"id": "C08", "title": "Identifiers and numbers are maximal", "statement": "In every document, an identifier, custom, special or template identifier token is never directly followed by a character [a-zA-Z0-9_], and a number or sized byte-string token never by a digit. But hexadecimal literals, numbers and ByStr may be cut off in the middle of a run of name characters without an error (`0xabc` is `0xab` and `c`, `ByStrFoo` is `ByStr` and `Foo`).", "quantifier": "every document and token", "why_tests_cant": "must hold for every continuation of every lexeme", "anchors": ["src/parser/lexer.rs: Lexer::next regexes"]}
{"id": "C09", "title": "Every token has a well-formed lexeme", "statement": "Every token the lexer yields from any document (also before a panic) carries a lexeme of its class: Number is an optional minus sign and digits, HexNumber is 0x/0X followed by an even number of hex digits, Identifier/CustomIdentifier/SpecialIdentifier/TemplateIdentifier/ByStrWithSize/StringLiteral have their documented shapes, and Comment, TypeName and Whitespace tokens never occur. `+` is always a token of its own, never the sign of a number.", "quantifier": "every document, every token", "why_tests_cant": "universal over documents", "anchors": ["src/parser/lexer.rs: Lexer::next"]}
{"id": "C10", "title": "Lexing inverts printing under any layout", "statement": "Writing any sequence of tokens that are determined by their spelling (well-formed, names not reserved and not starting with ByStr, string literals ASCII with proper escapes) with arbitrary layout (whitespace, closed comments) before, between and after them, where the layout between two tokens may be empty if they do not merge, and lexing the result yields exactly that token sequence.", "quantifier": "every token sequence, every choice of layout", "why_tests_cant": "infinite family of token sequences and layouts", "anchors": ["src/parser/lexer.rs: Lexer::next"]}
{"id": "C11", "title": "Comments: first `*)` closes, no nesting, unterminated swallows the rest", "statement": "After `(*` everything up to and including the first following `*)` is skipped, whatever it contains (further `(*` do not nest); if there is no `*)` the rest of the document is silently skipped and no error is reported.", "quantifier": "every comment body and every following text", "why_tests_cant": "arbitrary comment contents", "anchors": ["src/parser/lexer.rs: Lexer::next comment branch"]}
{"id": "C12", "title": "Token byte positions are exact while line numbers are not", "statement": "Every yielded token starts at its exact byte offset; its line is the number of newlines before it that were met as whitespace: never more than the number of newlines before it, and equal to it if no comment and no string literal comes before (newlines in comments and strings are not counted).", "quantifier": "every document and token", "why_tests_cant": "depends on the whole prefix of the document", "anchors": ["src/parser/lexer.rs: Lexer::next (self.line)"]}
{"id": "C13", "title": "Reported columns", "statement": "The column reported for a token is measured at the start of the previous lexeme (whitespace character, comment or token), not at the token itself; the exact relation is proved for every token of every document. A token directly after a one-byte whitespace character other than a newline gets its true 0-based column on every line but the first, and one less on the first line; the claim 'column = characters since the last newline' is false.", "quantifier": "every document and token", "why_tests_cant": "depends on all preceding lexemes", "anchors": ["src/parser/lexer.rs: Lexer::next (self.character)"]}
{"id": "C14", "title": "Unknown characters are never accepted", "statement": "If lexing a document yields an Unknown token (a character that starts no token), or a `+`, `*` or `-` token, then from_str is a ParseError, even if the lexer would panic further on.", "quantifier": "every document", "why_tests_cant": "universal over documents containing a stray character", "anchors": ["src/parser/lexer.rs", "src/parser/parser.lalrpop"]}
{"id": "C15", "title": "Parser soundness", "statement": "Whenever the parser accepts a token sequence and returns a syntax tree, that tree is derived from exactly that token sequence (all of it) by the published grammar productions.", "quantifier": "every token sequence", "why_tests_cant": "infinite input space", "anchors": ["src/parser/parser.lalrpop: Program"]}
{"id": "C16", "title": "Parser completeness", "statement": "Every token sequence derivable from the published grammar productions is accepted by the parser, with the derived syntax tree.", "quantifier": "every derivation of the grammar", "why_tests_cant": "infinite set of programs", "anchors": ["src/parser/parser.lalrpop"]}
{"id": "C17", "title": "The grammar is unambiguous", "statement": "A token sequence has at most one syntax tree.", "quantifier": "every token sequence", "why_tests_cant": "ambiguity cannot be excluded by testing", "anchors": ["src/parser/parser.lalrpop"]}
{"id": "C18", "title": "Acceptance and the interface depend only on token kinds and texts, not on layout", "statement": "Two documents whose token sequences agree up to positions give the same result (the same contract, error or panic; only the wording of syntax errors may differ). In particular: laying out the same tokens in two ways gives the same result; in an ASCII document any layout may be inserted at any token boundary but the very end, and in any document one non-empty layout replaced by another, without changing tokens or result -- provided this does not bring the first or remove the last double quote after that place, or no earlier token is an unrecognised character or a string literal ending in an escaped quote.", "quantifier": "every pair of documents with equal token sequences; every boundary and layout", "why_tests_cant": "infinitely many layouts", "anchors": ["src/contract.rs: Contract::from_str", "src/parser/lexer.rs", "src/parser/parser.lalrpop"]}
{"id": "C19", "title": "Syntax-tree spans", "statement": "In the tree of every accepted program each node with position metadata starts at the start of its first token and ends at the end of its last token, these tokens being a phrase of the grammar with exactly this node as value; every child's span lies inside its parent's span and siblings are disjoint and in source order -- with exactly two exceptions: a list of import declarations is reported to start at its last `import`, and the tag of an address type has the span of the whole address type unless it is a special identifier.", "quantifier": "every accepted token sequence and node", "why_tests_cant": "every node of every tree", "anchors": ["src/parser/parser.lalrpop", "src/ast/nodes.rs: WithMetaData"]}
{"id": "C20", "title": "Accepted programs have balanced brackets and one contract", "statement": "Every accepted token sequence begins with scilla_version and a number, has properly nested (), {}, [] brackets, and contains exactly one `contract` keyword outside address types, which is followed by the name of the contract; sequences violating this are rejected.", "quantifier": "every accepted token sequence", "why_tests_cant": "infinite language", "anchors": ["src/parser/parser.lalrpop"]}
{"id": "C21", "title": "Every transition in the source is represented, in order", "statement": "In an accepted program the transitions and procedures of the tree are those announced by the transition and procedure keywords of the source, in order, with the names that follow the keywords; the fields are those announced by field keywords outside address types. Whenever from_str succeeds, the contract's transitions and fields are exactly these: none missing, none invented.", "quantifier": "every accepted token sequence", "why_tests_cant": "infinite language", "anchors": ["src/parser/parser.lalrpop"]}
{"id": "C22", "title": "Grammar quirks users can observe", "statement": "A leading comma in a parameter list is accepted and ignored, a trailing comma is not accepted; `forall 'A. T -> U` parses as `(forall 'A. T) -> U` for all T and U; the first `import` takes several names, every further `import` exactly one, and the tree lists the names in source order; the README's example contract text is rejected.", "quantifier": "every parameter list, every pair of types, every import section", "why_tests_cant": "precedence applies to every pair of types", "anchors": ["src/parser/parser.lalrpop"]}
{"id": "C23", "title": "Contract name", "statement": "Whenever Contract::from_str succeeds the name of the returned contract is the name written after the `contract` keyword.", "quantifier": "every successful parse, including contracts using unsupported constructs", "why_tests_cant": "universal", "anchors": ["src/simplified_representation/emitter.rs: emit_contract_definition", "src/contract.rs"]}
{"id": "C24", "title": "Init params, fields and transitions are exact on the supported type fragment", "statement": "For every document that the grammar derives and whose contract-parameter, field and transition-parameter types are all understood (names with enough arguments, maps with a name as key, address types, in any nesting), from_str succeeds and returns exactly the declared interface: the name, the parameters, the fields and the transitions in source order, with the names and the types given by a direct reading of the source. Moreover a specification on the syntax tree (types, ignored namespaces, the first type without a meaning) decides for every program whether emission gives a contract, and which, an error, or a panic, except for programs whose first such type mentions Event or has an erroneous or oddly named field inside an address type.", "quantifier": "every document the grammar derives", "why_tests_cant": "infinitely many programs and nested types", "anchors": ["src/simplified_representation/emitter.rs", "src/type.rs"]}
{"id": "C25", "title": "Procedures, bodies, initialisers, libraries, imports and constraints never matter", "statement": "Changing procedure definitions, transition bodies, field initialisers, the library section, imports, the version or the contract constraint in any way never changes the emitted Contract (nor success/failure/panic).", "quantifier": "every pair of syntax trees that agree on the interface", "why_tests_cant": "infinitely many programs", "anchors": ["src/simplified_representation/emitter.rs", "src/ast/visitor.rs"]}
{"id": "C26", "title": "Positions never influence the emitted contract", "statement": "Emission is independent of the source positions stored in the tree.", "quantifier": "every syntax tree and re-positioning", "why_tests_cant": "universal", "anchors": ["src/simplified_representation/emitter.rs", "src/ast/visitor.rs"]}
{"id": "C27", "title": "Unsupported interface types panic", "statement": "If the first type of the interface that is not understood is a function type, a polymorphic type or a type variable, contains one in a position that is looked at, or lacks type arguments, from_str panics rather than returning an error.", "quantifier": "every such program", "why_tests_cant": "universal over the surrounding program", "anchors": ["src/simplified_representation/emitter.rs: emit_scilla_type"]}
{"id": "C28", "title": "Emitter misreadings (refutations)", "statement": "The claims 'namespaced types keep their meaning', 'Event-typed fields are rejected or represented', 'an address type as map key works', 'errors inside address types are reported' are false. In contract parameters and fields a namespaced type M.T is reported as T, silently, at any depth except as a map value; in a transition parameter it makes from_str panic; an address type as map key and a namespaced name as map value are accepted by the grammar and then an error; a field of type Event of a contract without parameters gets the contract's name as its type, and is an error if the contract has parameters; contract parameters and transition parameters of type Event are never accepted unless a namespace was ignored before; an error inside an address type is swallowed and the field gets a wrong type.", "quantifier": "every program in which the other types of the interface are understood (concrete programs for swallowed errors)", "why_tests_cant": "universal over the surrounding program", "anchors": ["src/simplified_representation/emitter.rs", "src/ast/visitor.rs"]}
{"id": "C29", "title": "Number, order and names of parameters, fields and transitions", "statement": "Whenever emission succeeds, whatever the types are, the contract has exactly the parameters, fields and transitions of the program, each transition with its parameters, in the same order and with the written names.", "quantifier": "every successful emission, including programs outside the supported fragment", "why_tests_cant": "universal", "anchors": ["src/simplified_representation/emitter.rs"]}
{"id": "C30", "title": "SrType -> Type conversion: exact panic set", "statement": "Converting a simplified type panics exactly when, along the positions it reads, an Option or List has no argument or a Pair or Map has fewer than two; otherwise it yields a type.", "quantifier": "every simplified type tree", "why_tests_cant": "unbounded nesting", "anchors": ["src/type.rs: From<SrType> for Type"]}
{"id": "C31", "title": "SrType -> Type conversion: meaning", "statement": "Option and List take their last argument, Pair and Map their last two, converted recursively; built-in names give the built-in types, ByStr<n> gives ByStrX(n), other names Other(name). A type is the image of some simplified type exactly if it contains no Other with the spelling of another type and no ByStrX number beyond 64 bits. `ByStr020` is ByStrX(20), a type different from ByStr20 although displayed alike.", "quantifier": "every simplified type and every type", "why_tests_cant": "unbounded nesting", "anchors": ["src/type.rs"]}
{"id": "C32", "title": "Which types have a Display that is valid Scilla, and round trip", "statement": "For every type that contains no map and no address type with fields (and has legal names), lexing, parsing and converting its displayed text gives the type back (with ByStr20 for ByStrX(20), which is displayed alike), and a contract using the displayed text as a parameter, field and transition-parameter type is read back exactly; the displayed text of every other type with legal names is lexed without a panic but is not a type of the grammar.", "quantifier": "every type of the fragment", "why_tests_cant": "unbounded nesting", "anchors": ["src/type.rs: Display"]}
{"id": "C33", "title": "Display is injective on well-formed types", "statement": "Two types whose names are legal and not reserved (maps and address types included) display to the same text if and only if they differ at most in ByStrX(20) against ByStr20; no displayed type is a prefix of another one before a separator. Without the restriction on names there are collisions: Other(\"Int32\") and Int32.", "quantifier": "every pair of types in the fragment", "why_tests_cant": "unbounded pairs", "anchors": ["src/type.rs: Display"]}
{"id": "C34", "title": "Visitor: enter/exit events are well bracketed", "statement": "Visiting any tree without a library let-definition with a visitor that always continues makes exactly the calls of the specified walk: Enter and Exit exactly once per visited node, properly nested, in pre- and post-order, returning Continue.", "quantifier": "every syntax tree", "why_tests_cant": "unbounded trees", "anchors": ["src/ast/visitor.rs"]}
{"id": "C35", "title": "Visitor: SkipChildren prunes", "statement": "If Enter of a node returns SkipChildren, nothing else is called for that node (not even Exit) and the visit continues; for a whole tree, the calls are those of the walk without the subtrees below skipped nodes. Exception: for address types Exit is still called.", "quantifier": "every node, every visitor, every state", "why_tests_cant": "all visitors and trees", "anchors": ["src/ast/visitor.rs"]}
{"id": "C36", "title": "Visitor: errors abort", "statement": "In a tree without address types and argument lists of builtins or contract types, a callback that returns an error is the last one called and the visit returns its error; callbacks are only ever called for nodes of the tree. Exceptions, stated exactly: the error of the Enter of an address type is dropped and Exit is called; of the errors inside builtin argument lists only the text \"Failure\" is passed on, inside contract type arguments only the empty text.", "quantifier": "every node, every visitor", "why_tests_cant": "all visitors and trees", "anchors": ["src/ast/visitor.rs"]}
{"id": "C37", "title": "Visitor: source-position stack", "statement": "After a full walk the stack of source positions has grown by exactly the number of message entries with a variable, empty maps and match-statement clauses of the tree, the earlier entries being untouched; without such nodes every push is matched by a pop; pops never outnumber pushes; when Enter is called for a node with a position, this position is on top. For every visitor, also one that skips children or fails, a visit that does not panic leaves the earlier entries untouched and at most that many more, so none without such nodes.", "quantifier": "every syntax tree, every visitor", "why_tests_cant": "unbounded trees", "anchors": ["src/ast/visitor.rs"]}
{"id": "C38", "title": "Visiting a library let-definition panics", "statement": "Visiting a tree with a visitor that continues panics if and only if the tree contains a library let-definition; Contract::from_str nevertheless accepts such programs because it never visits the library.", "quantifier": "every tree and every continuing visitor", "why_tests_cant": "universal", "anchors": ["src/ast/visitor.rs: NodeLibrarySingleDefinition"]}
{"id": "C39", "title": "from_str errors are parse errors only; parse(path) = from_str(contents)", "statement": "Contract::from_str fails only with ParseError; Contract::parse(path) returns IoError iff the file cannot be read or its bytes are not the UTF-8 encoding of a text, and otherwise exactly from_str of the encoded text.", "quantifier": "every document, every file-system outcome", "why_tests_cant": "universal", "anchors": ["src/contract.rs", "src/error.rs"]}
{"id": "C40", "title": "Interface round trip", "statement": "For every interface with legal names (the contract and transitions may also be called Event or ByStr<digits>) and writable types (name, init params, fields, transitions), every layout of every program with that interface -- any version, imports, library, constraint, initial values, bodies and procedures -- is read by from_str as exactly that contract; every such interface has a program, and different interfaces have different print-outs.", "quantifier": "every writable interface, every program with it, every layout", "why_tests_cant": "unbounded interfaces", "anchors": ["src/contract.rs", "src/parser/lexer.rs", "src/parser/parser.lalrpop", "src/simplified_representation/emitter.rs", "src/type.rs"]}
{"id": "C41", "title": "from_str is total and deterministic on ASCII documents", "statement": "For every ASCII document from_str yields a contract, a ParseError, or panics; a panic means that the document is a program whose first interface type without a meaning is one that panics (or mentions Event, or has a faulty field inside an address type); an error means that it is no program, or one whose first interface type without a meaning is an error (or one of the mentioned forms).", "quantifier": "every ASCII document", "why_tests_cant": "universal", "anchors": ["src/contract.rs"]}
{"id": "C42", "title": "Contents of comments cannot inject code", "statement": "At every token boundary of every document, behind any layout, the body of a closed comment may be replaced by any other body without `*)` without changing the tokens or the result of from_str -- provided the replacement neither introduces the first nor removes the last double quote after that boundary, or no earlier token is an unrecognised character or a string literal that ends in an escaped quote (without this proviso the claim is false: a quote inside a comment extends the literal `\"\\\"` before it).", "quantifier": "every document, comment position, and bodies", "why_tests_cant": "universal", "anchors": ["src/parser/lexer.rs", "src/contract.rs"]}
{"id": "C43", "title": "Where a syntax error is decided", "statement": "As soon as the tokens yielded so far are not the beginning of any program, from_str is a ParseError whose text does not depend on what follows, and a panic of the lexer further on is not reached. When the lexer panics on a document, from_str panics if the tokens before can be continued to a program, and is a ParseError otherwise.", "quantifier": "every pair of documents that share such a beginning; every document on which the lexer panics", "why_tests_cant": "quantifies over all continuations", "anchors": ["src/contract.rs", "src/parser/parser.lalrpop", "src/parser/lexer.rs"]}
{"id": "C44", "title": "Every public parser implements its nonterminal", "statement": "Each of the parsers generated for the public nonterminals (types, expressions, statements, ...) accepts exactly the token sequences its nonterminal derives, with the derived value; acceptance and value do not depend on positions.", "quantifier": "every public nonterminal, every token sequence", "why_tests_cant": "infinite input space for each of 51 parsers", "anchors": ["src/parser/parser.lalrpop"]}
{"id": "C45", "title": "Displayed identifiers", "statement": "The displayed text of a type name, a (possibly qualified) type identifier or a variable is the concatenation of the texts of its tokens; for an identifier of an ASCII document, reading the displayed text with the same parser gives the same identifier.", "quantifier": "every identifier phrase of every ASCII document", "why_tests_cant": "infinite family of names", "anchors": ["src/ast/nodes.rs: impl Display", "src/parser/parser.lalrpop"]}
{"id": "C46", "title": "Printing the tokens again", "statement": "Writing the tokens of any ASCII document one after the other, each followed by a blank, and reading the print-out gives the same tokens and the same result of from_str, unless the document contains a string literal that ends in an escaped quote or an unrecognised character; in particular an accepted document is read back as the same contract.", "quantifier": "every ASCII document", "why_tests_cant": "infinite family of documents", "anchors": ["src/parser/lexer.rs", "src/contract.rs"]}
{"id": "C47", "title": "Appending, inserting and exchanging components", "statement": "Appending the text of procedures and transitions (with well-formed parameter types) after a document that is a program and ends in whitespace or a comment adds exactly the appended transitions, in order, to the end of the contract's transitions and changes nothing else of the result; appended procedures change nothing. The same holds for components inserted between or removed from among the components of a program, and exchanging two neighbouring groups of components exchanges exactly their transitions. (If the document contains a string literal ending in an escaped quote, the appended text must not contain a quote.)", "quantifier": "every program text and every text of components", "why_tests_cant": "infinite family of pairs of documents", "anchors": ["src/parser/lexer.rs", "src/parser/parser.lalrpop", "src/simplified_representation/emitter.rs", "src/contract.rs"]}
{"id": "C48", "title": "Foreign characters", "statement": "An accepted document contains non-ASCII characters only as whitespace, in comments, in string literals and among the characters lost after a non-ASCII string literal; without comments and quotes it consists of ASCII characters and whitespace. A non-ASCII character that is neither whitespace nor alphanumeric (a byte order mark, say) at a token boundary makes from_str a ParseError whatever follows.", "quantifier": "every document and every classification of the non-ASCII characters", "why_tests_cant": "infinite family of documents", "anchors": ["src/parser/lexer.rs", "src/contract.rs"]}
{"id": "C49", "title": "Names are opaque", "statement": "Whether a token sequence is a program depends only on the kinds of its tokens. Renaming names and literals consistently throughout a document -- leaving the names of the built-in types, names starting with ByStr and the words Event, contract and library alone and producing none of them -- renames them in the resulting contract and changes nothing else: the document is accepted, rejected or makes from_str panic just as before.", "quantifier": "every document and every renaming", "why_tests_cant": "infinite family of pairs of documents and of renamings", "anchors": ["src/parser/lexer.rs", "src/parser/parser.lalrpop", "src/simplified_representation/emitter.rs", "src/type.rs", "src/contract.rs"]}
{"id": "C50", "title": "Nothing in a result is invented", "statement": "Every name in the contract returned by from_str -- its own, those of parameters, fields and transitions, of user-defined types, of the fields of address types -- is the text of a token of the document, hence written in the document. The one exception is the empty tag of an address type with nothing after `with`.", "quantifier": "every accepted document, every name in its contract", "why_tests_cant": "infinite input space", "anchors": ["src/parser/lexer.rs", "src/parser/parser.lalrpop", "src/simplified_representation/emitter.rs", "src/type.rs", "src/contract.rs"]}
{"id": "C51", "title": "Successes do not depend on the wording of errors", "statement": "Which documents are accepted, the contract they give, and which documents make from_str panic do not depend on the texts of errors (the Debug rendering of internal objects and the parser's messages).", "quantifier": "every document and every pair of renderings", "why_tests_cant": "universal", "anchors": ["src/simplified_representation/emitter.rs", "src/contract.rs"]}
{"id": "C52", "title": "The set of possible results is known exactly", "statement": "Every interface the library returns is legal, whatever document (ASCII or not) it came from: parameter, field and transition-parameter names start with a lower-case letter, consist of ASCII letters, digits and underscores and are not keywords; contract and transition names are legal Scilla names; a user-defined type name is a legal type name and never the name of a type the library knows; map keys are single type names; address types have fields only after `contract`. Conversely every legal interface is returned for some document, so the possible results are exactly the legal interfaces; and printing a result in a plain way and parsing that text gives the same result again. (For classifications of characters where no non-ASCII character is both whitespace and alphanumeric, as in Unicode.)", "quantifier": "every document, every interface", "why_tests_cant": "quantifies over all documents and over the whole image of the function", "anchors": ["src/contract.rs: FromStr for Contract", "src/simplified_representation/emitter.rs: SrEmitter", "src/parser/lexer.rs: Lexer::next"]}
{"id": "C53", "title": "Error texts point at the first offending token", "statement": "Every error of from_str is of one of three kinds, recognisable from its text. (1) The text names a token: it is the first token of the document that no program continues with, shown by its kind, its text and its two positions, and the byte offset read from the message is where the source text of this token stands in the document. (2) The text says that the document ended: all tokens of the document can be continued to a program, but are none, and the position is the end of the last token. (3) Otherwise the document is a program of the grammar and the text is `Expected <symbol name | variable declaration | type definition>, but found <nothing | object>.`", "quantifier": "every document that is an error, every escape of non-ASCII characters, every list of expected tokens", "why_tests_cant": "must hold for every rejected document; the notion `no program continues` quantifies over all programs", "anchors": ["src/error.rs: Error", "src/parser/lexer.rs: SourcePosition, Token, Lexer::next", "src/simplified_representation/emitter.rs: pop_ir_identifier, pop_variable_declaration, pop_type_definition", "src/contract.rs: FromStr for Contract"]}
{"id": "C54", "title": "Debug renderings are unambiguous", "statement": "Unlike Display, the {:?} of a Type or Contract determines it: two types or contracts with the same {:?} are equal. Two syntax errors with the same text are about the same token at the same place.", "quantifier": "every pair of types, contracts and rejected documents", "why_tests_cant": "injectivity quantifies over all pairs", "anchors": ["src/type.rs: Type", "src/field.rs: Field, FieldList", "src/contract.rs: Contract", "src/transition.rs: Transition, TransitionList"]}
{"id": "C55", "title": "Line ends", "statement": "Saving a document with Windows line ends (a carriage return before every newline) changes neither whether it is accepted, nor the contract it gives, nor whether from_str panics; the lexer yields the same tokens on the same lines, only string literals that span lines contain the other line ends. (For documents whose string literals are ASCII; without this the claim is false.)", "quantifier": "every document whose string literals are ASCII", "why_tests_cant": "infinite family of documents", "anchors": ["src/parser/lexer.rs", "src/contract.rs"]}
{"id": "C56", "title": "Unicode tables matter only where they are used", "statement": "Which characters outside ASCII count as letters, digits or spaces (this differs between versions of the standard library) changes nothing about the tokens or the result of a document in which no such character's class changed; in particular nothing about a document that is all ASCII.", "quantifier": "every document and every two classifications of the non-ASCII characters that agree on the characters of the document", "why_tests_cant": "infinite family of documents and of classifications", "anchors": ["src/parser/lexer.rs", "src/contract.rs"]}
{"id": "C57", "title": "Edits are local", "statement": "The tokens before an edit, and their positions, do not change when the text after a token boundary is replaced (by text that starts with a space or a parenthesis); the tokens after a boundary are those of the remaining text alone, with byte positions moved by the length of the text before, line numbers by a fixed number, and columns only up to the first line break.", "quantifier": "every document, every boundary between its tokens, every replacement text", "why_tests_cant": "infinite family of documents, edit points and replacements", "anchors": ["src/parser/lexer.rs"]}
{"id": "C58", "title": "The work is linear", "statement": "Emission terminates after a number of callbacks that is linear in the document: at most 4 per node of the contract, 20 per token, and a document has at most one token per character; a visit of the tree by any visitor calls at most 2 callbacks per node (10 per character), whatever the callbacks return. No document makes the tool do exponential work, although contract parameters are visited twice.", "quantifier": "every document, every tree and every visitor", "why_tests_cant": "a bound on all documents; nested types are visited by callbacks that start visits of their own", "anchors": ["src/simplified_representation/emitter.rs: all emit_* callbacks", "src/ast/visitor.rs: AstVisitor impls"]}
{"id": "C59", "title": "The parsers accept what the grammar file says", "statement": "Each generated parser, in particular the parser for whole programs, accepts a sequence of tokens if and only if the productions of parser.lalrpop, read as a context-free grammar with X*, X+ and X?, generate it from the nonterminal of that name; nothing else decides acceptance, in particular not the texts of names and literals.", "quantifier": "every nonterminal of the grammar file and every sequence of tokens", "why_tests_cant": "infinite family of token sequences; 136 productions, nested without bound", "anchors": ["src/parser/parser.lalrpop: all 59 nonterminals"]}
{"id": "C60", "title": "The shift-reduce parser behaves as specified", "statement": "Whatever tables the parser generator produced, as long as they fit the grammar file: the generated parser, which pulls tokens out of the lexer one at a time, ends on every document after at most 12 steps per token, without running off its stack and without ever reporting an extra token; it accepts exactly the documents whose tokens the grammar file generates; it rejects a token only if no program begins with the tokens up to it, and then the tokens before it do begin one; and from_str built on it has exactly one result for every document, the one specified. Tables that fit the grammar exist.", "quantifier": "every document and all LR tables that fit the grammar", "why_tests_cant": "quantifies over all documents and all tables; the tables are not in the repository", "anchors": ["src/contract.rs: FromStr for Contract", "src/parser/parser.lalrpop: Program", "lalrpop_util::state_machine (dependency)"]}
{"id": "C61", "title": "Expected tokens could really have come", "statement": "In the message of a syntax error every token that is listed as expected is one that could have come at this place: the tokens before the error, that token and some further ones are a program. The offending token is never listed. At an unrecognised character the list is complete: it names exactly the tokens that could have come. The same holds at any other token, and at the end, if the parser has no action at all for it in the state reached by the last token read; otherwise possible tokens can be missing (a case is given).", "quantifier": "every document that is a syntax error and all LR tables that fit the grammar", "why_tests_cant": "quantifies over all rejected documents and all continuations", "anchors": ["src/error.rs: From<ParseError> for Error", "lalrpop_util::state_machine (dependency)"]}
{"id": "C62", "title": "The trees are those the actions compute", "statement": "The tree a parser returns is the one the actions of parser.lalrpop compute, field by field: which part of the input goes into which field, in which order, with which variant, and which positions. The value does not depend on how the productions are applied, and the actions never fail.", "quantifier": "every nonterminal of the grammar file, every sequence of tokens, every derivation", "why_tests_cant": "infinite family of token sequences and derivations; 136 actions, nested without bound", "anchors": ["src/parser/parser.lalrpop: all actions", "src/ast/nodes.rs: all node types"]}
{"id": "C63", "title": "The parser returns the tree the actions compute", "statement": "Whatever tables the parser generator produced, as long as they fit the grammar file: the shift-reduce parser, which applies the actions of parser.lalrpop to the values on its stack at every reduction (with None and empty vectors for what is left out), accepts a document with a value exactly if the document's tokens are a program and the actions compute this value for it; no action ever meets a value of the wrong shape and no stack is too short; and from_str run this way has exactly one result for every document, the one specified.", "quantifier": "every document and all LR tables that fit the grammar", "why_tests_cant": "quantifies over all documents and all tables; the tables are not in the repository", "anchors": ["src/contract.rs: FromStr for Contract", "src/parser/parser.lalrpop: all actions", "lalrpop_util::state_machine (dependency)"]}
{"id": "C64", "title": "Every program has a known outcome", "statement": "For every program of the grammar, including those whose types the tool misreads (types `Event`, namespaced names, address types in maps), a reading of the program with a pile of things found so far says exactly what from_str does: the contract it returns, or the error `Expected ..., but found ....` with the missing thing and the thing found, or a panic. Where the declared interface has a meaning (C24), the reading gives it.", "quantifier": "every document that the grammar derives", "why_tests_cant": "infinite family of programs; outcomes depend on what earlier declarations left behind", "anchors": ["src/simplified_representation/emitter.rs: all emit_* callbacks, pop_*, push_*", "src/contract.rs: FromStr for Contract"]}
{"id": "C65", "title": "Recursion is as deep as the interface types, not as long as the program", "statement": "The nesting of visits in the emitter is bounded by the nesting of the types of parameters, fields and transition parameters (at most twice the levels of these types plus a constant); the number of parameters, fields, transitions and procedures and the size and nesting of expressions and statements do not matter. Deep types are really paid for: for every n there is a program with one field whose type is in n parentheses and which needs more than n nested visits.", "quantifier": "every program and every limit on nesting", "why_tests_cant": "quantifies over all programs and all depths; a deep enough type exhausts any stack", "anchors": ["src/simplified_representation/emitter.rs: all emit_* callbacks", "src/ast/visitor.rs: AstVisitor impls"]}
{"id": "C66", "title": "Theorems about syntax trees cover every value of the declared types", "statement": "The trees the theorems range over are, one to one, the values of the struct and enum types the crate's syntax-tree module declares (struct fields in order, enum variants in order, Option, Vec, Box, strings, positions): every such value, also one a library user builds by hand, is the image of exactly one tree, and nothing else is.", "quantifier": "every declared type of the syntax tree and every value of it", "why_tests_cant": "quantifies over all values of 50 mutually recursive types", "anchors": ["src/ast/nodes.rs: every struct and enum"]}
{"id": "C67", "title": "The debug text of a syntax tree determines the tree", "statement": "Two syntax trees of the same type that print the same with {:?} are equal, including every string, every option and list and every source position. The text is self-delimiting: whatever follows (if it does not continue a number or a word) can be split off in one way only. Hence two documents whose trees print the same give the same contract or the same error.", "quantifier": "every two values of every syntax-tree type, strings with arbitrary characters", "why_tests_cant": "quantifies over all pairs of trees and all strings (quotes, backslashes, braces, commas inside strings)", "anchors": ["src/ast/nodes.rs: #[derive(Debug)]", "src/parser/lexer.rs: SourcePosition #[derive(Debug)]"]}
{"id": "C68", "title": "Ordering of syntax trees and positions", "statement": "The derived comparison of syntax trees and of source positions is a total order that agrees with ==: exactly one of <, ==, > holds, > is the converse of <, < is transitive. Positions are ordered by byte offset first.", "quantifier": "every two (three) values of every syntax-tree type and of SourcePosition", "why_tests_cant": "quantifies over all triples of trees of unbounded size", "anchors": ["src/ast/nodes.rs: #[derive(PartialOrd, PartialEq, Eq)]", "src/parser/lexer.rs: SourcePosition"]}
{"id": "C69", "title": "The lexer does what its regular expressions say", "statement": "The eight regular expressions of the lexer, read from their source text, with the leftmost-first semantics the regex crate documents (left alternative first, repetition as often as possible before giving back), decide on every text exactly the token the lexer takes: which of the eight matches first, and how much text it covers. The matcher itself is right for every expression: it finds a match exactly if a prefix of the text is in the language of the expression, and what it finds is one.", "quantifier": "every text, every regular expression of the used syntax", "why_tests_cant": "quantifies over all texts, including string literals with any mix of quotes, backslashes and line ends where backtracking decides", "anchors": ["src/parser/lexer.rs: the Regex::new calls and the cascade of find calls in Lexer::next"]}
{"id": "C70", "title": "Byte offsets, slices and files are those of UTF-8", "statement": "Offsets and lengths are counts of UTF-8 bytes; a slice at a byte index panics exactly if the index is not a character boundary of the bytes; the bytes of the document between the offsets of a token are the bytes of its text. Contract::parse fails with an I/O error exactly if the file cannot be read or its bytes are not well-formed UTF-8 (no overlong forms, surrogates, stray or missing continuation bytes), and otherwise returns what from_str returns for the text with these bytes. Comparing strings is comparing their bytes.", "quantifier": "every document, byte index, token, and every file content (arbitrary bytes)", "why_tests_cant": "quantifies over all byte sequences and all indices into them", "anchors": ["src/contract.rs: Contract::parse", "src/parser/lexer.rs: Lexer::next, SourcePosition"]}
{"id": "C71", "title": "The syntax tree forgets exactly three things", "statement": "Apart from white space, comments and positions, the tree of an accepted document records every token except three kinds: a comma directly after an opening parenthesis, every `import` but the first, and `()` before the arguments of a builtin. Two accepted documents have the same tree (up to positions) exactly if their tokens agree without these; then from_str returns exactly the same for both. A printer that writes the tree back needs nothing else: its output is accepted with the same tree and the same contract.", "quantifier": "every two accepted documents, and every other syntactic category with its own parser", "why_tests_cant": "infinite family of pairs of programs; a lost token would have to be found in some unknown context", "anchors": ["src/parser/parser.lalrpop: all productions and actions", "src/ast/nodes.rs: all node types"]}
{"id": "C72", "title": "An emitter that has been used before", "statement": "SrEmitter is public and can visit any nodes before its emit is called. Whatever it has visited (successfully or not), emit does with a program what the reading of C64 begun with the objects left on its stack says. If the program has a meaning (C24) these leftovers do not matter: emit fails or panics as with a fresh emitter, or returns the contract collected so far with the declared parameters, fields and transitions added and the new name; several contracts visited with one emitter are put together in order. No visit of any node takes anything away from what has been collected. Where types are misread (an Event type, say) the past does matter.", "quantifier": "every state of the emitter, hence every history of visits of any nodes, and every program", "why_tests_cant": "quantifies over all histories", "anchors": ["src/simplified_representation/emitter.rs: SrEmitter, emit, AstConverting for SrEmitter"]}
{"id": "C73", "title": "Machine arithmetic never overflows", "statement": "Every addition and subtraction of the lexer on its counters stays within usize for every document that has fewer bytes than usize has values (every document in memory): a debug build does not panic on overflow, a release build does not wrap, both compute what the model with unbounded numbers computes. Every coordinate of every token is at most the length of the document, and passes SourcePosition::is_valid if the document is shorter than isize::MAX. The bound is sharp: for every word size there is a document one byte longer that makes a debug build panic.", "quantifier": "every document and every word size", "why_tests_cant": "needs documents of every size; overflow would show only on inputs near 2^64 bytes", "anchors": ["src/parser/lexer.rs: Lexer::next, SourcePosition::with_end, is_valid, start_position, invalid_position"]}
{"id": "C74", "title": "The spelling of a token determines it", "statement": "In ASCII documents the text between the two offsets of a token determines the token: tokens of any two documents that are cut from equal texts are equal, whatever surrounds them. Hence two ASCII documents whose tokens are cut from the same texts in the same order have the same tokens and the same result of from_str. (Every token of every document has exactly one such text; it is empty exactly for an unrecognised character. Outside ASCII the claim fails: `end` in front of an accented letter is a name.)", "quantifier": "every two ASCII documents and every two tokens of them", "why_tests_cant": "quantifies over all pairs of documents and contexts", "anchors": ["src/parser/lexer.rs: Lexer::next, Token"]}
{"id": "C75", "title": "Results built by hand", "statement": "A contract put together from the parts of a parsed one with Field::new, FieldList::default and push, Transition::new and new_without_param equals the parsed one (as the project's tests rely on); push adds at the end and moves nothing. The text of a ParserError determines its message, line and column, whatever the message contains.", "quantifier": "every contract, every list of fields, every two ParserErrors", "why_tests_cant": "quantifies over all values, including messages that end like a position", "anchors": ["src/field.rs: Field::new, FieldList::push", "src/transition.rs: Transition::new, new_without_param", "src/parser/mod.rs: ParserError"]}
{"id": "C76", "title": "No dead syntax", "statement": "For every syntactic category with its own parser there are one text to put before and one to put after that turn every text of the category into an accepted program, whose tree contains the value of that text; so everything any of the parsers accepts can be part of a contract. Every struct and every enum variant of the syntax tree occurs in the tree of some accepted document, except NodeByteStr::Constant, which occurs in the tree of no document: hexadecimal constants are never byte-string types.", "quantifier": "every category, every text it accepts, and every variant of every tree type", "why_tests_cant": "an unreachable production or variant would have to be searched for in infinitely many documents", "anchors": ["src/parser/parser.lalrpop: every pub production", "src/ast/nodes.rs: every struct and enum"]}
{"id": "C77", "title": "The interface can be read off the tokens", "statement": "There is a description of the interface of a program on its tokens alone (which tokens are a type and which type, what a parameter list, a field list, the transitions and the head of a program look like), written without the grammar of the type language. Every document whose tokens say an interface in this sense is accepted with exactly that interface; tokens say at most one; and if a document does not use the word `Event`, writes names after `field`, and has no address types with fields or no namespaces and address types as map keys, then it is accepted with an interface if and only if its tokens say that interface.", "quantifier": "all documents, all token lists, all interfaces, all Unicode tables (with no character that is both a letter and white space for the converse)", "why_tests_cant": "The set of programs is infinite and types nest to any depth; a test compares single programs only.", "anchors": ["src/parser/parser.lalrpop: TypeArgument, RemainingScillaTypes, AddressType, TypeMapKey, TypeMapValue, TypeMapValueAllowingTypeArguments, TypeMapValueArguments, ContractDefinition", "src/simplified_representation/emitter.rs: SrEmitter", "src/contract.rs: Contract::from_str"]}
{"id": "C78", "title": "Editing the interface of a program edits the contract accordingly", "statement": "Take an accepted document whose tokens are ordinary in the sense of C77. Replacing the name and the parameter list after a keyword `transition` replaces exactly the transition of the contract at the corresponding place; replacing the name and the parameters after `contract` replaces exactly the name and the parameters of the contract; replacing the name and the type of a field replaces exactly that field; inserting, removing or appending fields inserts, removes or appends exactly those fields. The edited document is always accepted, whatever the rest (imports, library, bodies, initial values, other declarations) is.", "quantifier": "all documents, all places, all replacements that are well-formed and have a type, all Unicode tables without a character that is both a letter and white space", "why_tests_cant": "The rest of the document is arbitrary; only a proof shows that a local edit never has an effect elsewhere.", "anchors": ["src/parser/parser.lalrpop: ContractDefinition, ContractField, ComponentDefinition", "src/simplified_representation/emitter.rs: SrEmitter", "src/contract.rs: Contract::from_str"]}
{"id": "C79", "title": "`{:#?}` and dbg! say exactly what `{:?}` says", "statement": "The indented debug text ({:#?}, also used by dbg! and by failing assert_eq!) of a syntax tree, of a type and of a contract, put on one line by a fixed rule that knows nothing of the value, is exactly its {:?} text. Hence two trees, types or contracts with the same {:#?} text are equal, including all positions.", "quantifier": "all values of all syntax-tree types, all types, all contracts, strings with arbitrary characters (line breaks, brackets and quotes included)", "why_tests_cant": "values are unbounded, and strings may imitate the layout; a test compares single values", "anchors": ["src/ast/nodes.rs: #[derive(Debug)]", "src/contract.rs: Contract", "src/field.rs: Field, FieldList", "src/transition.rs: Transition, TransitionList", "src/type.rs: Type"]}
{"id": "C80", "title": "Nothing in a syntax tree is invented", "statement": "Every string in a tree that any of the parsers returns is the text of one of the tokens it has read, or empty; positions occur only as start and end of located nodes, where start is the start of a token read and end the end of one. Hence in a document every string of the tree is a piece of the document, and every position lies in the document and passes is_valid (if the document is shorter than half the largest usize).", "quantifier": "every parser of the grammar, every token list and every document it accepts, every string and position in the tree at any depth", "why_tests_cant": "quantifies over all accepted inputs and all nodes of their trees; an action that makes up a default position or name would show only in the right context", "anchors": ["src/parser/parser.lalrpop: all actions", "src/parser/lexer.rs: Lexer::next", "src/ast/nodes.rs: WithMetaData"]}
{"id": "C81", "title": "A program is one sequence of parts, and only the parts of its interface matter", "statement": "A token sequence is accepted iff it is `scilla_version` and a number, optional imports, an optional library, `contract` with a name and parameters, an optional constraint, fields, and transitions and procedures, each part a phrase of its kind; and the division into these parts is unique. Two accepted documents whose contract names, parameters, field declarations and transition headers are the same tokens give the same result (contract, error or panic), whatever the version, imports, library, constraint, initial values, bodies and procedures. In particular every accepted ASCII document gives the same result as the text of its stub, from which all of that is removed.", "quantifier": "every token sequence, every outline, every pair of documents with the same interface parts", "why_tests_cant": "quantifies over all programs and over all replacements of the parts outside the interface; a parser that lets a body run into the next transition, or an emitter that looks at a body, would show only for some of them", "anchors": ["src/parser/parser.lalrpop: Program, ContractDefinition, ContractField, ComponentDefinition, TransitionDefinition, ProcedureDefinition", "src/simplified_representation/emitter.rs: emit_program, emit_contract_definition, emit_contract_field, emit_transition_definition", "src/contract.rs: Contract::from_str"]}
{"id": "C82", "title": "Every public parser, as it runs", "statement": "Each of the generated parsers (TypeArgumentParser, FullExpressionParser, ..., one for every nonterminal of the grammar file), driven by any tables that fit the grammar file with this start symbol, ends on every document after at most 14 steps per token, in exactly one way: it returns a value exactly if the lexer takes the document apart into tokens the productions read as that nonterminal, and the value is the tree the actions compute; it rejects a token exactly at the first token with which no phrase of this kind begins, or the end of an unfinished phrase, and every token it then lists as expected could really have come; it panics exactly if the lexer does before a token is rejected. It never runs off its stack, never meets a value of the wrong shape and never reports an extra token.", "quantifier": "every nonterminal, every document and all LR tables that fit the grammar", "why_tests_cant": "quantifies over all documents, all continuations, 59 start symbols and all tables", "anchors": ["src/parser/parser.lalrpop: all public nonterminals", "lalrpop_util::state_machine (dependency)"]}
{"id": "C83", "title": "Truncated documents", "statement": "If an ASCII document in which no quote is escaped has a contract and is cut anywhere (in the middle of a word, a comment, a literal), then what is left is either a syntax error (no program of the grammar) or has a contract that begins the other one: the same name, the same parameters, the first of its fields and the first of its transitions, in order, and no transition unless all fields are there. So a truncated download or an interrupted write can only lose declarations; it never invents or changes one. With an escaped quote this is false: the cut may turn the text of a literal into a field.", "quantifier": "every document, every place it is cut at", "why_tests_cant": "quantifies over all documents and all cuts", "anchors": ["src/parser/lexer.rs: Lexer::next", "src/parser/parser.lalrpop: Program, ContractDefinition, ContractField, ComponentDefinition", "src/simple_contract_visitor/emitter.rs: SrEmitter", "src/contract.rs: from_str"]}
{"id": "C84", "title": "Block structure; forgotten, superfluous or mistaken delimiters", "statement": "In every program the blocks -- (...), {...}, [...], with ... end (of match and of address types; the contract constraint, whose with stands directly after ')' outside all blocks, opens none), transition ... end, procedure ... end -- are properly nested and all closed, and which blocks are open at a place is determined by what follows. Hence leaving out or adding one bracket, end, transition or procedure anywhere, or writing another of them in its place (except transition for procedure and conversely), never gives a program again; and on documents: writing a blank in the place of such a delimiter turns a document with a contract into a syntax error, so the parser never silently regroups the rest of the contract.", "quantifier": "every program, every place in it, every delimiter", "why_tests_cant": "quantifies over all programs and all places of an edit", "anchors": ["src/parser/parser.lalrpop: all productions with these terminals", "src/parser/lexer.rs: Lexer::next", "src/contract.rs: from_str"]}
{"id": "C85", "title": "Files glued together", "statement": "scilla_version stands at the beginning of a program and nowhere else; hence no proper end of a program is a program, a document in which the lexer yields scilla_version at any place but the first is a syntax error whatever comes after it, and putting any document with at least one token, ending in white space or a closed comment, in front of a document that has a contract (one file after another, a file pasted twice) gives a syntax error, never one of the two contracts or a mixture. The layout is needed: a comment left open at the end of the first file swallows the second one silently.", "quantifier": "every pair of documents, every place", "why_tests_cant": "quantifies over all pairs of documents", "anchors": ["src/parser/parser.lalrpop: Program", "src/parser/lexer.rs: Lexer::next", "src/contract.rs: from_str"]}
{"id": "C86", "title": "The result is linear in the document", "statement": "The contract returned is never larger than twice the document: whatever weights are given to parts (declarations, type constructors, transitions) and to characters of names, the weight of the result is at most twice that of the tokens the lexer yields, hence the number of parts is at most twice the number of tokens and all names together have at most twice as many characters as the document, although parameters are visited twice and names left behind by one type are picked up by another; no document makes the result blow up. The factor is needed: the name of the contract can be reported twice.", "quantifier": "every document with a result", "why_tests_cant": "quantifies over all documents", "anchors": ["src/simple_contract_visitor/emitter.rs: SrEmitter", "src/contract.rs: from_str", "src/parser/lexer.rs: Lexer::next"]}
{"id": "C87", "title": "What may stand next to what", "statement": "Of the 3481 pairs of kinds of token exactly 627, listed in a table, can stand next to each other in a program: every pair of neighbouring tokens of every accepted document is in the table, and every pair in the table, with any texts, occurs in some accepted document; likewise the table of last tokens is exact. A document in which the lexer yields two neighbouring tokens that are not in the table is therefore a syntax error whatever stands before and after them (a comma before a closing parenthesis, a misspelt transition after end, two literals in a row), and the text after the second one has no influence on the error.", "quantifier": "every pair of tokens, every document", "why_tests_cant": "quantifies over all programs containing the pair, before and after", "anchors": ["src/parser/parser.lalrpop: Program", "src/parser/lexer.rs: Lexer::next", "src/contract.rs: from_str"]}
{"id": "C88", "title": "A misspelt keyword is noticed", "statement": "Put a word that is no keyword (a name of any kind, Event, ByStr, ByStr20) into the place of scilla_version, contract, field, transition, procedure, let, in, match, with, end, fun, tfun, of, exists, delete or Emp anywhere in a document that is accepted: the result is a syntax error, never a contract with another interface; and conversely a word cannot be replaced by one of these keywords. (One exception: with contract and with _contract in the type of an address.) The other keywords, forall, builtin, library, import, send, event, accept, throw, Map, type and as, can be misspelt and both documents are accepted.", "quantifier": "every document, every place, every word", "why_tests_cant": "quantifies over all programs around the keyword, of any length and nesting", "anchors": ["src/parser/parser.lalrpop: Program", "src/parser/lexer.rs: Lexer::next", "src/contract.rs: from_str"]}
{"id": "C89", "title": "A forgotten or repeated keyword is noticed", "statement": "Leave out one of the keywords scilla_version, transition, procedure, end, let, in, match, with, fun, tfun, of, Emp, field, delete anywhere in a document that is accepted: the result is a syntax error, never a contract with another interface; and conversely none of them can be put into an accepted document without notice. Writing any keyword twice is noticed as well. The other keywords, contract (in the type of an address), exists, forall, builtin, library, import, send, event, accept, throw, Map, type and as, can be left out so that both documents are accepted.", "quantifier": "every document, every place", "why_tests_cant": "quantifies over all programs around the keyword, of any length and nesting", "anchors": ["src/parser/parser.lalrpop: Program", "src/parser/lexer.rs: Lexer::next", "src/contract.rs: from_str"]}
{"id": "C90", "title": "One keyword written for another is noticed", "statement": "Of two documents that differ only in one keyword, at any place, at most one is accepted, and the other is a syntax error, whichever two of the twenty-seven keywords they are, except for ten pairs: library and import, library and contract, library and as, import and as, send and event, send and throw, event and throw, accept and throw, of and type, transition and procedure. Each of these ten can be exchanged in some document so that both are accepted.", "quantifier": "every document, every place, every pair of keywords", "why_tests_cant": "quantifies over all programs around the keyword, of any length and nesting", "anchors": ["src/parser/parser.lalrpop: Program", "src/parser/lexer.rs: Lexer::next", "src/contract.rs: from_str"]}
{"id": "C91", "title": "Which tokens can be left out", "statement": "In an accepted document, leaving out any one token of the kinds `:`, `=>`, `&`, `@`, an opening or closing bracket, a string literal, or one of the fourteen keywords of C89 always gives a syntax error, wherever it stands; and adding one there to an accepted document does too. (`+`, `*` and `-` stand in no accepted document.) These are all such kinds: for each of the other kinds of tokens there is an accepted document from which one may be left out and the document is still accepted.", "quantifier": "every document, every place, every kind of token", "why_tests_cant": "quantifies over all programs around the token, of any length and nesting", "anchors": ["src/parser/parser.lalrpop: Program", "src/parser/lexer.rs: Lexer::next", "src/contract.rs: from_str"]}
{"id": "C92", "title": "A token written twice", "statement": "Of two documents of which one has a token and the other has in its place that token followed by another of the same kind, at most one is accepted, and the other is a syntax error, wherever the token stands, except for eight kinds: `_`, `Event` as a type, `ByStr`, `ByStr` with a size, and the four kinds of names. For each of these eight there is an accepted document in which one may be written twice.", "quantifier": "every document, every place, every kind of token", "why_tests_cant": "quantifies over all programs around the token, of any length and nesting", "anchors": ["src/parser/parser.lalrpop: Program", "src/parser/lexer.rs: Lexer::next", "src/contract.rs: from_str"]}
{"id": "C93", "title": "One token written for another", "statement": "Of two documents that differ in one token only, which in the one is of one of twenty-six kinds (the brackets, `:`, `,`, `@`, `=>`, `&`, `let`, `in`, `match`, `with`, `end`, `fun`, `tfun`, `field`, `exists`, `delete`, `Emp`, `scilla_version`, and `+`, `*`, `-`) and in the other is any other token whatever, at most one is accepted, and the other is a syntax error, wherever the token stands. Each of the other thirty-three kinds can be mistaken: for each there is an accepted document in which a token of another kind may stand in its place.", "quantifier": "every document, every place, every token of the twenty-six kinds and every other token", "why_tests_cant": "quantifies over all programs around the token, of any length and nesting", "anchors": ["src/parser/parser.lalrpop: Program", "src/parser/lexer.rs: Lexer::next", "src/contract.rs: from_str"]}
