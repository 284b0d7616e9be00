# Design

Formal model of `pypsrp` (source text in /repo, read only) in Lean 4, with machine-checked
theorems about the properties listed in `properties.jsonl`.

## Trusted base

* Lean 4.33.0's kernel (every theorem is re-checked by it), and Mathlib only where imported.
* Axioms: at most `propext`, `Classical.choice`, `Quot.sound`. No own axioms, no `sorry`,
  no `native_decide`, no `bv_decide`. `Verif/Audit.lean` prints the axioms of the property theorems.
* The correspondence between the Python text and the Lean definitions. It is by reading: every
  definition cites the file and lines it models, and says what it simplifies. Nothing in Lean checks it.
* Python semantics assumed by the model: arbitrary-precision `int`, `bytes` slicing that clips
  silently, `struct.pack/unpack` raising on range/length errors, dict insertion order, `re` leftmost
  non-overlapping substitution, generators, `try/finally`.

## Layout of `lean/Verif`

* `Model/*`  – definitions only, function by function, exceptions as values. One file per source area.
* `Spec/*`   – short independent specifications (what a user expects). They use the data types of the model, and its functions only in
  a few places: the texts of strings in `Spec/Metadata` (characterised by C12-C14), the sealing in `Spec/Transport` (C21), .NET's base64 in
  `Spec/Client` (C105), the merge table in `Spec/Commands` (C43).
* `Lemmas/*` – helper lemmas.
* `Props/*`  – the property theorems, each followed by an `example` with a concrete non-trivial
  instance that meets its hypotheses.  Theorem names start with the property id (`C07_...`).
* A property that is false of the code gets a `..._false` theorem with a concrete witness, and a
  `..._partial` theorem with the strongest version that holds. These are collected in the section
  "Findings" below.

## What is modelled and how each property is proved

Bytes are `UInt8`-valued lists (`List UInt8`), integers are `Nat`/`Int`, exceptions are constructors.

| id | model | proof |
|----|-------|-------|
| C01 | `Fragment.pack/unpack` with big-endian fields, struct range errors, silent slicing | direct; big-endian round-trip lemma by induction on width; the layout of [MS-PSRP] 2.2.4 is stated apart from the model (`C01_layout`) |
| C02 | `Fragmenter.fragment` (byte iterator, first piece) and `defragment` with the per-object buffer | induction over the chunk list; receive boundaries by a fold-append lemma |
| C03 | same, counter threaded through a list of sends | induction over sends, invariant "counter > all ids" |
| C04 | `Fragmenter` created for limit M, `fragment`, `fragment_multiple` | invariant over the block loop |
| C05 | `fragment_multiple` then `defragment` | flattening invariant: concatenation of blocks = concatenation of all fragments |
| C06 | `defragment` on an interleaving of several fragment lists | simulation: buffer of each object evolves independently |
| C07 | `defragment` on any stream from any reachable state | invariant: buffer entry = concatenation of fragments 0..id-1 seen for that object |
| C08 | session-capability handler, `update_max_payload_size` | bound +21 (partial), witness for the negation |
| C09 | `open` sends only the first block | partial when one block suffices, witness otherwise |
| C10 | `Message.pack/unpack` header, GUID mixed-endian bytes, BOM strip | direct, little-endian lemmas |
| C11 | message type table and the dispatch of `Message.unpack` | finite table by `decide`, lifted to all numbers |
| C12 | `_serialize_string` over code points | induction over the string |
| C13 | `_serialize_string`, `_deserialize_string` over UTF-16-BE bytes, byte-level regex scan | token-list induction; partial with "no U+5F00 followed by U+78xx"; witness for the negation |
| C14 | `_deserialize_string` on token lists | same token lemma |
| C15 | XML tree, `serialize`/`deserialize` for the listed kinds | structural induction over values |
| C16 | RefId counters and TN table threaded through serialization | state invariant by structural induction |
| C17 | `_create_tn` keyed on the first type name | partial (type lists determined by head), witness |
| C18 | `_serialize_que/_stk` with the shared element meta | partial (homogeneous queue), witnesses |
| C19 | PKCS7 over an abstract block cipher with an inverse, UTF-16-LE | direct, arithmetic on padding |
| C20 | blob construction | little-endian digits lemma |
| C21 | MIME wrap/unwrap at byte level, sealing abstract | partial: ciphertext free of the boundary and header markers; witness |
| C22 | chunking in `wrap_message` | chunk lemma |
| C23 | unwrap on an arbitrary list of parts | induction over parts |
| C24 | `version_equal_or_newer` | refinement to numeric lexicographic order on padded lists |
| C25 | `get_pwsh_script` line filter | refinement to a two-state specification |
| C26 | pool operations as functions of state, with request trace | case analysis over states |
| C27 | step function over user calls and server messages | invariant by induction over histories |
| C28 | call-id table and counter | invariant over histories |
| C29 | setter loop over a stream of server messages | induction over the message stream |
| C30 | get_available_runspaces handler | negation witness, partial (min unchanged; max = answer) |
| C31 | disconnect/connect over a registry | partial + witness (finished pipelines lose their final state) |
| C32 | key exchange state machine | invariant; witness for the timeout case |
| C33 | dispatch of PUBLIC_KEY_REQUEST | proved negation |
| C34 | is_alive decision logic | case analysis |
| C35 | pipeline operations as functions of state | case analysis |
| C36 | poll loop over receives | fold-append lemma; refinement to filtering the message list |
| C37 | exception in the middle of a receive | negation witness |
| C38 | host call processing over message lists | induction, trace of responses |
| C39 | input loop over generators | induction; negation witnesses for empty/None generators |
| C40 | pipeline state handler across invocations | partial (first invocation) and witness |
| C41 | registry over histories | invariant by induction |
| C42 | stop with a failing signal | negation witness, partial |
| C43 | merge options | case analysis over all versions |
| C44 | `_get_statements` and setters | list induction |
| C45 | nested arrays, flatten and rebuild | induction over the rank |
| C46 | retry loop over outcome streams | induction over fuel/attempts |
| C47 | same loop, trace of wire messages, over a sequence of sends | invariant over trace |
| C48 | constructor decision table | case analysis |
| C49 | invoke correlation check | direct |
| C50 | envelope arithmetic | omega |
| C51 | status mapping and fault parsing | case analysis |
| C52 | retry loop with read-timeout budget | induction |
| C53 | WinRS open/close machine | invariant over histories |
| C54 | Process poll loop, per-stream concatenation | fold-append lemma |
| C55 | read_buffer generator | induction over the file in chunks |
| C56 | the copy.ps1 input loop (server side), hash abstract | fold lemma over items |
| C57 | fetch with file-system trace, hash abstract | case analysis over failure points |
| C58 | fetch.ps1 loop composed with fetch | partial (non-empty file, single read), witnesses |
| C59 | header check and provider table | case analysis |
| C60 | 401 loop with an abstract context | induction over the exchange |
| C61 | context variable stack | induction over a tree of scopes |
| C62 | method id dispatch | case analysis over ranges |
| C63 | flag rendering | finite flags, bitwise lemmas |
| C64 | default UI write methods | induction over calls |
| C65 | endpoint formatting | direct |
| C66 | execute_cmd with failure points | case analysis over outcomes |
| C67 | execute_ps command building | induction over the environment |

| C68 | same machine as C28, answers that do not raise | induction over histories |
| C69 | raw user interface: get/set cells and attributes | direct |
| C70 | requests of execute_cmd as trees | case analysis over outcomes |
| C71 | sends of a process | induction over the sends |
| C72 | shell attributes before and after a create response | case analysis on the response |
| C73 | sanitise_clixml on trees, parser abstract | C13 plus induction over the lines |
| C74 | printed envelopes, sizes in UTF-8 bytes | exact size of each request, arithmetic |
| C75 | envelope trees | direct, induction over option lists |
| C76 | shell programs and their envelopes | C75 plus case analysis |
| C77 | ElementTree's printer against a small XML reader (`Spec/XmlRead`) | structural induction over elements |
| C78 | operation and HTTP timeouts | direct |
| C79 | the property tables of all message and record classes (`Model/Classes`, compared with the code by `tools/classes.py`) | partial; induction over the declared kinds, checks of the table by `decide +kernel` |
| C80 | reading of typed objects, property by property | induction over the properties, for all documents |
| C81 | constructors as assignments of keyword arguments | partial; case analysis over the table |
| C82 | INIT_RUNSPACEPOOL and host information as values for the serializer | read back by induction over the properties |
| C83 | CREATE_PIPELINE with its statements, commands and parameters as values for the serializer | partial; read back by induction over commands, arguments and building calls |
| C84 | `Message.pack` and `unpack` with the serializer, ElementTree's printer and the XML reader of `Spec/XmlRead` | partial; tags of every written document by induction over the serializer, then C02, C10, C15, C77, C79, C82, C83 composed |
| C85 | `get_runspace_pools`, connecting and disconnecting as requests on a connection with given answers | partial; induction over the listing, requests by C75 and C76 |
| C86 | `_build_session` and the authentications; merging with environment and netrc as in the source of requests 2.32 | partial; case analysis over authentications and arguments, induction over option lists, base64 by C20's lemmas |
| C87 | choice of the pool manager (adapter or proxy), opening a connection in a context, redirects as in requests | partial; C61's invariant over any run of scopes |
| C88 | arguments of the security context, host of an address (`urllib.parse`), preparation of hosts (urllib3), certificate hash | partial; reading of addresses by induction, C86 composed, redirects by C87's `follow` |
| C89 | `update_max_payload_size` on a connection with given answers | partial; C74, C75 and C106 composed |
| C90 | texts of the exceptions and a reader for them | partial; round trip through the reader by induction over the details, injectivity for states and status |
| C91 | `with` statements over pools and pipelines with any program as body; `execute_ps` on the pool model | partial; invariant on creates, deletes and the shell over all programs, run of `execute_ps` request by request |
| C92 | `_receive` from the answers of the server to the messages of the pool model: streams, fragments, messages, what the handlers read | partial; C06's simulation over answers, run of the pool until it is open and the pipeline over, lookup of properties in any object |
| C93 | `get_command_metadata`: the request, the run on the pool model, the objects that are returned | partial; request for all names and namespaces, run until the pipeline is over, lookup of properties in any object |
| C94 | default host classes: number of arguments and kind of each of the 51 methods, attributes, exit code | table checked method by method, lifted to all arguments and states |
| C95 | documents of all classes: type names, texts, names, kinds, order and optional marks of the properties | a separate table of the layouts (`Spec/Layout.lean`), compared with the table of the model class by class and lifted over the serializer by induction on the properties |
| C96 | documents as a PowerShell server writes them: which values they stand for, apart from how this library writes | partial; a relation between values and documents (`Spec/ServerDocs.lean`) with the type names and objects written so far; simulation of the deserializer by mutual induction on the relation |
| C97 | documents of INIT_RUNSPACEPOOL and CREATE_PIPELINE, element by element, with type names resolved | partial; the documents are written down apart from the class table (`Spec/Docs.lean`), and the serializer is shown to give them by induction on values, commands and properties (`Lemmas/Docs.lean`); missing: parameters that are objects, STA for a pool with another state |
| C98 | `_process_host_call` from the document of the call to the document of the answer | partial: false of colors without a name (`C98_color_false`: the color -1 that the default host takes cannot be answered later) and of WriteProgress (`C98_progress_false`: its record follows a number and has no type names, so it arrives as the text of its document); arguments that are lists or secure strings are not modelled |
| C99 | `str` of integers and ids, `base64.b64encode`, UTF-16, `struct.pack` of unsigned fields, as used by all other models | induction on digits, bytes and bits; tables of 10, 16, 64 and 256 cases by `decide`, lifted to all values; decimal notation is Lean's own `toString` |
| C100 | `ET.fromstring` with namespaces, `NAMESPACES`, paths of `find` and `findall`; all requests of a shell and the creation of a pool as documents with namespaces | a relation between written and meant elements (`Spec/Namespaces.lean`: scopes of declarations as functions), refinement by mutual induction on elements; the namespaces are compared with those of the protocol |
| C101 | `receive` from the HTTP response to the messages that a pool sees, `execute_ps` on it | induction on the exchanges with an invariant on the connection (encryption, uses of the context); refinement to C92 |
| C102 | `_invoke` and the input loop of `begin_invoke` down to the documents of the requests, and the create request of a pool | partial: false of a pool whose first messages do not fit one block (`C09_open_loses_data_false`); composition of C03, C76, C99 and C100 over the requests that were sent before the first error |
| C103 | `execute_cmd` over `WSMan.invoke` and `send`: requests as documents, responses as bytes | the answers are those to the requests that the theorem shows to be made; composition of C54, C66, C100 and C45 |
| C104 | the patterns of `_get_auth_token` and of `_TransportHTTP.send` as searches | the first match is stated over positions and splittings of the header (`TokenIn`, `BoundaryIn`), without the functions of the model; the specification of C59, C60 and C66 uses these too |
| C105 | `base64.b64decode` (the state machine of `binascii.a2b_base64`, not strict), compared with `Convert.FromBase64String` | the texts are stated by their sextets and bits (`Base64Text`); induction over the text with an invariant for the four states |
| C106 | `int(text)` with ASCII digits, exit codes, the whole numbers of CLIXML | partial; the texts are stated as a grammar (`WholeNumber`), induction over the digits in both states of the scanner |

## What of the code is modelled

Line numbers are in the comments of the definitions, simplifications too. `python3 tools/coverage.py` lists the functions
that no comment in `Model/` cites. It is coarse: a cited function need not be modelled in full, and a function can be modelled
under a citation of its caller.

| file in src/pypsrp | modelled | not modelled |
|---|---|---|
| `messages.py` | type numbers, header, `pack` and `unpack` down to bytes, choice of the class, the property tables and constructors of the classes | methods of the messages |
| `powershell.py` | `Fragment`, `Fragmenter`; `RunspacePool` and `PowerShell` as a state machine on messages, and `_receive` from bytes to messages; finding pools on the server; merge options; key blob; `with` statements | hosts that use the pool themselves |
| `serializer.py` | both directions on XML trees, and their text | floats, `repr` of bytes, an object that refers to itself |
| `complex_objects.py` | metadata classes, flags, redirections, statements, arrays, host method names, the property tables and constructors of the classes, host information, commands and pipelines | `__str__` |
| `host.py` | `run_method`, the default host and its user interfaces; objects have integer properties only | |
| `_utils.py` | `version_equal_or_newer`, `get_pwsh_script`, `get_hostname` | `to_bytes`, `to_unicode`, reading the script file |
| `_pool_manager.py` | `DisableNewConnectionsContext`, wrapped `connect`, the adapter with a key password | |
| `wsman.py` | sizes, endpoint, headers, option and selector sets, invoke, faults, transport send and retries, encryption choice, building the session; proxies and redirects as requests treats them | CredSSP |
| `negotiate.py` | header check, token loop, arguments of the context, channel bindings | |
| `encryption.py` | all, sealing abstract | |
| `shell.py` | all: `WinRS`, `Process`, request bodies and options | |
| `client.py`, `pwsh_scripts/` | `execute_cmd`, `execute_ps`, `copy`, `fetch`, `sanitise_clixml`, both scripts | constructor, `close` |
| `exceptions.py` | exception classes as constructors, their messages | |
| `__init__.py` | | logging setup |

The retries of urllib3 are modelled from its documentation. Sizes computed with floats in Python are exact below 2^50.

## Not modelled

* TLS, HTTP, sockets, `requests` (except merging of settings, proxies, redirects and basic authentication, which are written after its
  source, version 2.32), Kerberos/NTLM/CredSSP mathematics, RSA and AES (abstract functions with
  the stated inverse properties), SHA1 (an arbitrary function), logging,
  warnings, wall-clock time (modelled as an outcome stream), thread interleaving inside one Python process
  (the library has no locks; each object is modelled for use from one thread at a time).
* XML: most of the model uses trees. How ElementTree prints a tree is taken from its source (`Model/XmlText`). The parser is not
  ElementTree's but the small reader of `Spec/XmlRead`; it is written from the XML recommendation and reads every printed document back
  (C77, C84). That expat agrees with it on these documents is trusted. Namespaces are modelled on top of it (`Model/Namespaces`): scopes of
  declarations, default namespaces and expat's refusals; `TransportEnv.parse` is any function for the properties up to C99, and
  this reader for C100 and C101. The reader has no comments, processing instructions, CDATA sections and document types; documents
  with them are outside C100 and C101.
* Digits outside ASCII in numbers, which Python's `int` accepts: they are an error in the model (C24, C89, C106).
* PowerShell and .NET: the two scripts are modelled statement by statement with the documented behaviour of
  the calls. The comparison of hashes ignores ASCII case only.

## Wrong programs

`seeded/LOG.jsonl` has one line for each wrong program tried (`tools/mutate.py`). A wrong program is killed if the build fails. This
shows that some proof or example depends on the edited line; it does not by itself show that the statement of the property is
false of the wrong program, because a proof of a helper may break for its wording alone. The field `kill` (later entries) tells
what failed: a property theorem, an example, or only helpers. After a failure in `Lemmas/` the files that import it are not built,
so that property theorems that would also fail are not listed. Only survivors are conclusive.

## Findings

Places where the code does not do what the property says, or where a proved property has a limit worth knowing. The
theorem with the witness is named.

Fragments and messages
* C07: a truncated body is accepted (`C07_truncated_body_false`), and a repeated start fragment replaces what was
  received (`C07_repeated_start_false`).
* C08: after the limits are raised the fragmenter forgets its 21 byte header (`C08_overrun_false`).
* C09: `open` sends only the first block of the two opening messages (`C09_open_loses_data_false`).

Serialization
* C12: U+FFFE and U+FFFF are not escaped (`C12_noncharacters_false`).
* C13: escapes are searched in UTF-16 bytes and found across code units (`C13_shifted_false`).
* C15: containers in a list and empty byte strings do not come back (`C15_dict_in_list_false`,
  `C15_nested_list_false`, `C15_empty_bytes_false`).
* C17: type names are keyed on the first name only (`C17_type_names_false`).
* C18: mixed queues, reversed stacks, and drained collections of the caller (`C18_mixed_queue_false`, `C18_stack_reversed_false`,
  `C18_queue_drained_false`, `C18_stack_drained_false`).
* C25: a one-line block comment swallows code (`C25_one_line_block_false`).
* C45: empty dimensions cannot be sent (`C45_empty`); a received array cannot be sent before it is read (`C45_resend`).
* C79: host information cannot be read by its class, it has no setters (`C79_host_false`); two properties of error records
  are both called `SerializeExtendedInfo`, and one is read as the other (`C79_error_false`); names of bound parameters are written
  without `N="Key"` and lost (`C79_parameters_false`); a DateTime is read but cannot be written (`C79_time_false`); a truth value in a whole number property is written as `True` (`C79_bool_false`).
* C106: numbers outside the range of the type of an element are accepted (`C106_range_false`).
* C80: objects are read in the order of the class. Type names defined in an element that is skipped or read later are
  unknown (`C80_types_false`, `C80_order_false`), and an object sent by reference is not found (`C80_reference_false`).
* C81: a new error record has no `target_object` (`C81_error_false`), and the language tag of a culture goes to the misspelt
  attribute `ieft_language_tag` (`C81_culture_false`); neither can be serialized.
* C83: `begin_invoke(apartment_state=ApartmentState.STA)` is the same as no apartment state, because STA is 0
  (`C83_apartment_false`). An object that is the value of two parameters is written the second time as a reference without a
  name, which cannot be read (`C83_shared_false`).
* C84: `Message.unpack` raises `AttributeError` on the library's own END_OF_PIPELINE_INPUT, whose body is empty (`C84_end_false`),
  and on CONNECT_RUNSPACEPOOL without limits, whose body is `<S />` (`C84_connect_false`). An output object without the properties of
  its class is read as a generic object, but not if it is inside another one (`C84_nested_false`).
* C96: a table or list in an array is read as an object with the text of its document (`C96_nested_false`), and so are the items of an
  enumerable (`C96_enumerable_false`). A number or string with added properties is read as the text of its document if its type names are
  written (`C96_number_false`) or if it follows a string in an array list, because the list changes the description that it shares between its
  items (`C96_mixed_false`). Escapes in the names of properties are not decoded (`C96_name_false`).

Pools and pipelines
* C27: a pool can be deleted twice or reopened by a late message (`C27_deleted_twice_false`, `C27_reopened_false`).
* C30: `get_available_runspaces` stores the answer as the maximum (`C30_max_false`).
* C31: disconnect and connect lose the final state of finished pipelines (`C31_finished_false`, `C31_history_false`).
* C32: an unfinished key exchange blocks later ones (`C32_unfinished_false`). C33: a key request of the server is
  ignored (`C33_ignored_false`, `C33_history_false`).
* C34: `is_alive` raises on a read timeout (`C34_read_timeout_false`).
* C37: if the host fails, output before it in the same receive is lost (`C37_lost_false`, `C37_silent_false`).
* C39: an empty generator sends no end of input, None ends the input, false input is sent to a pipeline created
  without input (`C39_empty_generator_false`, `C39_none_false`, `C39_no_input_false`).
* C40: `had_errors` is not reset (`C40_reused_false`). C41: a failed start stays registered (`C41_failed_start`).
* C42: a failed stop leaves the pipeline stopping for good (`C42_stuck_false`).
* C43: without a protocol version `merge_all` raises halfway (`C43_unnegotiated`).
* C61: a scope object entered twice is not restored (`C61_reentered_false`).
* C62: without a host an unknown method id raises `KeyError` (`C62_no_host`). C64: a null line raises (`C64_null`).
* C85: a found pool uses the default configuration, not the one of its shell (`C85_configuration_false`), and a shell of any kind
  becomes a pool (`C85_kind_false`). Closing it before connecting deletes no named shell, and its state is asked of no named shell
  (`C85_unnamed_false`). A pipeline is connected by its own id, not by the one that the server gave (`C85_command_false`). The rest
  of a long listing is never asked for (`C85_rest_false`). A connection message longer than one block is cut off
  (`C85_data_false`).

Transport
* C21: boundary, marker line or padding in sealed data (`C21_boundary_false`, `C21_marker_false`, `C21_padding_false`).
* C46: a receive repeats connect timeouts beyond the budget (`C46_receive_false`); a connection lost after sending is
  not repeated (`C46_aborted_false`).
* C51: an error page in XML without a fault hides the status (`C51_document_false`).
* C59: provider ntlm with Kerberos on offer (`C59_ntlm_false`); a scheme is found anywhere in the header (`C59_realm`).
  C60: the token may be the one of another scheme (`C60_other_scheme`).
* C86: `cert_validation=None` or an empty path turns the verification of certificates off (`C86_verification_false`). The
  documented service WSMAN is not the default, `host` is (`C86_service_false`). Credentials in a netrc file replace the
  header of certificate authentication (`C86_netrc_false`). Basic credentials must be Latin-1, and the name without a colon
  (`C86_basic_false`).
* C87: through a proxy, requests makes its own pool manager: new connections are made although they are disabled, and the
  password of the key is not used (`C87_proxy_false`). Redirects are followed, and 307 or 308 take the message along
  (`C87_redirect_false`).
* C88: a context is kept under the host that requests sent and looked up under that of the endpoint. They differ for names outside
  ASCII, so that encryption raises KeyError (`C88_idn_false`). A redirected request authenticates to the other server
  (`C88_redirect_false`).
* C89: a configuration without a limit sets it to 0 without an error; a pool made afterwards loses every message, because none has
  blocks (`C89_absent_false`). Pools made before go on with the old size (`C89_stale_false`). A server that allows 150 KiB, the old
  default, gets requests of up to 512000 bytes if it speaks protocol 2.2 (`C89_raised_false`).
* C90: the code 0 is left out (`C90_zero_false`); details with commas can look like other details (`C90_comma_false`). A state number
  without a name makes the text of the error raise KeyError (`C90_state_false`, `C90_pipeline_false`).
* C104: the name of a scheme in another challenge hides the token, and the exchange stops (`C104_token_false`). A parameter in quotes after
  the boundary is read as a part of it, and a boundary without quotes is not found, which raises AttributeError (`C104_boundary_false`).

Shells, copy and fetch
* C53: a create response with a nameless selector leaves a shell behind (`C53_malformed_false`, `C66_open_false`); a
  response without selectors keeps those of the shell before (`C53_stale_false`).
* C54: an exit code is forgotten if a later response has none (`C54_rc_false`), so that `execute_cmd` returns -1
  (`C66_rc_false`). C66: the process is not ended if a poll fails (`C66_signal_false`).
* C55: with a payload limit of 83 bytes a file of one byte is sent as an empty one, with the hash of an empty one
  (`C55_small_false`); with a limit of 80 or less the whole file is one item (`C55_negative_false`).
* C56: an item that is not base64 leaves the temporary file (`C56_temp_false`); the old destination is deleted before
  the move (`C56_lost`).
* C57: the result of `os.write` is ignored, so that a short write installs a truncated file (`C57_write_false`); a
  failing close keeps the temporary file (`C57_temp_false`).
* C58: empty files and partial reads on the server cannot be fetched (`C58_empty_false`, `C58_read_false`).
* C72: a reopened shell asks for the idle timeout the server wrote, with "PT" and "S" around it again (`C72_idle_false`), and
  without the id it was given (`C72_id_false`).
* C73: error lines are joined before they are decoded, so that two lines can make an escape (`C73_joined_false`).
* C74: a configuration name of 249 bytes or more makes full send requests too large (`C74_configuration_false`); with
  `no_profile` and an idle timeout the create request is too large for a full block (`C74_create_false`).
* C77: a carriage return in an argument or input text of a shell request arrives as a line feed
  (`C77_carriage_return_false`), and a control character makes the request malformed (`C77_control_false`).
* C78: a timeout of 0 means the default (`C78_zero_false`); nothing relates the operation timeout to the read timeout
  (`C78_default_false`).
* C91: if opening a pool fails after its shell was made, nobody deletes the shell: `__exit__` is not called and `open` does not clean up
  (`C91_open_false`). A pool that the server calls broken is not deleted either (`C91_broken_false`). Leaving a `with PowerShell(...)`
  while the pipeline runs, for example because the connection was lost, raises InvalidPipelineStateError instead of the error of the body
  (`C91_masked_false`).
* C93: the types of the commands are sent as a number, not as the object that 2.2.2.14 has and the library's own reader looks for
  (`C93_type_false`). A pipeline that fails is not reported: its output so far is the result (`C93_failed_false`), and without output there is
  an IndexError instead of the server's error (`C93_empty_false`). The count is not compared, and whatever comes first is taken for it
  (`C93_count_false`). An object that is read as a string ends the call with an AttributeError (`C93_string_false`).
