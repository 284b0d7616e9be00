{"id": "C01", "title": "Fragment wire format round-trips", "statement": "Packing a fragment and unpacking the bytes, with any bytes following it, gives back the same object id, fragment id, start flag, end flag and data, and leaves exactly the following bytes. Packing fails exactly when an id or the data length does not fit its field.", "quantifier": "every object id and fragment id, both flags, every data length, every trailing byte string", "why_tests_cant": "Ids are 64 bit and the length is 32 bit; no finite test set covers them.", "anchors": ["src/pypsrp/powershell.py:Fragment.pack", "src/pypsrp/powershell.py:Fragment.unpack"]}
{"id": "C02", "title": "Fragmenting and reassembling a message is lossless", "statement": "The fragments produced for one message, fed to the receiving side in any number of receives (each receive carrying any run of whole fragments), yield exactly that message once, when its last fragment arrives, and leave no partial state.", "quantifier": "every message payload, every maximum size of at least one byte, every way of cutting the fragment sequence into receives", "why_tests_cant": "Payload length, maximum size and receive boundaries are unbounded and interact at the edges.", "anchors": ["src/pypsrp/powershell.py:Fragmenter.fragment", "src/pypsrp/powershell.py:Fragmenter.defragment", "src/pypsrp/powershell.py:Fragmenter._byte_iterator"]}
{"id": "C03", "title": "Outgoing fragments are well formed and object ids are never reused", "statement": "Every message sent gets a fresh object id, larger than all ids used before on that pool; its fragments carry fragment ids 0,1,2,... in order, the start flag on the first only, the end flag on the last only.", "quantifier": "every sequence of messages sent over one pool, with any sizes", "why_tests_cant": "Freshness is a statement about the whole sending history.", "anchors": ["src/pypsrp/powershell.py:Fragmenter.fragment", "src/pypsrp/powershell.py:Fragmenter.fragment_multiple", "src/pypsrp/powershell.py:Fragmenter._byte_iterator"]}
{"id": "C04", "title": "No outgoing block exceeds the connection's payload limit", "statement": "Every block handed to the connection by a fragmenter created for payload limit M has at most M bytes, both for single messages and for batches that share blocks.", "quantifier": "every payload limit above the 21 byte header, every batch of messages", "why_tests_cant": "The worst case depends on how earlier messages fill a block.", "anchors": ["src/pypsrp/powershell.py:Fragmenter.__init__", "src/pypsrp/powershell.py:Fragmenter.fragment", "src/pypsrp/powershell.py:Fragmenter.fragment_multiple"]}
{"id": "C05", "title": "Batched messages are delivered completely and in order", "statement": "Sending a batch of messages packed together and receiving the blocks in order yields exactly those messages in that order, however the blocks are grouped into receives.", "quantifier": "every list of non-empty messages, every maximum size, every grouping of blocks into receives", "why_tests_cant": "Block sharing depends on the sizes of all earlier messages.", "anchors": ["src/pypsrp/powershell.py:Fragmenter.fragment_multiple", "src/pypsrp/powershell.py:Fragmenter.defragment"]}
{"id": "C06", "title": "Interleaved messages are reassembled independently", "statement": "If fragments of several messages with different object ids arrive interleaved (each message's own fragments in order), every message is reassembled exactly, in the order their last fragments arrive, independent of the interleaving.", "quantifier": "every number of messages, every fragmentation of each, every interleaving, every grouping into receives", "why_tests_cant": "Interleavings grow exponentially.", "anchors": ["src/pypsrp/powershell.py:Fragmenter.defragment"]}
{"id": "C07", "title": "Reassembly accepts only complete in-order fragment runs", "statement": "Whatever bytes the server sends, each message handed to the caller is the concatenation of fragments 0,1,...,n of one object in that order, ending in an end fragment; a fragment whose id is not the next expected one raises FragmentError. (As stated this needs start flags to appear only on fragment 0; a repeated start flag discards earlier data.)", "quantifier": "every byte string / fragment stream, every prior receiving state reachable from the initial one", "why_tests_cant": "Adversarial inputs are unbounded.", "anchors": ["src/pypsrp/powershell.py:Fragmenter.defragment", "src/pypsrp/powershell.py:Fragment.unpack"]}
{"id": "C08", "title": "The payload limit still holds after version negotiation", "statement": "After the server announces protocol 2.2 or newer and the limits are raised, blocks sent still fit the connection's new payload limit.", "quantifier": "every message sent after the capability exchange", "why_tests_cant": "Only blocks within 21 bytes of the new limit show the failure.", "anchors": ["src/pypsrp/powershell.py:RunspacePool._process_session_capability", "src/pypsrp/powershell.py:Fragmenter.fragment", "src/pypsrp/wsman.py:WSMan.update_max_payload_size"]}
{"id": "C09", "title": "Opening a pool delivers both opening messages completely", "statement": "The bytes sent to create the shell, together with whatever is sent after it, let the server reassemble both the session capability message and the pool initialisation message, including the application arguments.", "quantifier": "every size of the application arguments and every payload limit", "why_tests_cant": "The failure only shows once the arguments exceed the payload limit.", "anchors": ["src/pypsrp/powershell.py:RunspacePool.open", "src/pypsrp/powershell.py:Fragmenter.fragment_multiple"]}
{"id": "C10", "title": "Message header round-trips", "statement": "Packing a message and unpacking it gives back the same destination, message type, runspace pool id, pipeline id (absent and all-zero are the same) and body bytes, also when the body starts with a byte order mark.", "quantifier": "every destination, message type, pair of 128 bit ids and body", "why_tests_cant": "Ids range over 2^128 values with a mixed-endian layout.", "anchors": ["src/pypsrp/messages.py:Message.pack", "src/pypsrp/messages.py:Message.unpack"]}
{"id": "C11", "title": "Message type numbers identify exactly one message kind", "statement": "No two message kinds share a type number, every kind the client can send or understand is mapped back to itself when received, and every other type number is rejected.", "quantifier": "every 32 bit message type number", "why_tests_cant": "A test can check the listed numbers but not that all other 32 bit values are rejected.", "anchors": ["src/pypsrp/messages.py:MessageType", "src/pypsrp/messages.py:Message.unpack"]}
{"id": "C12", "title": "Escaped strings contain only characters XML can carry", "statement": "The escaped form of a string contains no C0 control characters, no DEL/C1 control characters and no characters outside the basic plane, and every underscore-x of the input is itself escaped.", "quantifier": "every Python string", "why_tests_cant": "Strings are unbounded and the escape is context dependent.", "anchors": ["src/pypsrp/serializer.py:Serializer._serialize_string"]}
{"id": "C13", "title": "Strings survive the trip through CLIXML escaping", "statement": "Unescaping the escaped form of a string gives the original string.", "quantifier": "every Python string without lone surrogates", "why_tests_cant": "The decoder scans UTF-16 bytes, so a failure needs a particular run of characters that no ordinary test has.", "anchors": ["src/pypsrp/serializer.py:Serializer._serialize_string", "src/pypsrp/serializer.py:Serializer._deserialize_string"]}
{"id": "C14", "title": "Every server-side escaping of a string is decoded to the same string", "statement": "For any text the server may produce by writing some UTF-16 units literally and others as _xHHHH_ (with upper or lower case hex digits), decoding yields the intended units, provided literal text does not itself look like an escape.", "quantifier": "every sequence of literal and escaped UTF-16 units", "why_tests_cant": "The encoder of the peer is free to escape any subset of characters.", "anchors": ["src/pypsrp/serializer.py:Serializer._deserialize_string"]}
{"id": "C15", "title": "Nested values round-trip through CLIXML", "statement": "Serializing a value built from None, booleans, 32 bit integers, strings, byte strings, GUIDs, lists and dictionaries and deserializing the result gives the same value.", "quantifier": "every such value of any depth and width, from any serializer state", "why_tests_cant": "The value space is an unbounded recursive type.", "anchors": ["src/pypsrp/serializer.py:Serializer.serialize", "src/pypsrp/serializer.py:Serializer.deserialize", "src/pypsrp/serializer.py:Serializer._serialize_lst", "src/pypsrp/serializer.py:Serializer._serialize_dct", "src/pypsrp/serializer.py:Serializer._deserialize_lst", "src/pypsrp/serializer.py:Serializer._deserialize_dct"]}
{"id": "C16", "title": "Reference ids in a serialized document are unique and type references resolve", "statement": "In any serialized document each object RefId occurs once, each type-name definition has its own RefId, and each type-name reference points to a definition that occurs earlier in the same document.", "quantifier": "every serialized value, every nesting", "why_tests_cant": "Uniqueness is global over an unbounded document.", "anchors": ["src/pypsrp/serializer.py:Serializer._create_obj", "src/pypsrp/serializer.py:Serializer._create_tn", "src/pypsrp/serializer.py:Serializer._get_obj_id", "src/pypsrp/serializer.py:Serializer._clear"]}
{"id": "C17", "title": "An object's type names survive serialization", "statement": "The type names that a receiver resolves for an object (directly or through a type reference) are the type names the object was given.", "quantifier": "every sequence of objects with any type name lists", "why_tests_cant": "The failure needs two objects with the same first type name and different tails.", "anchors": ["src/pypsrp/serializer.py:Serializer._create_tn", "src/pypsrp/serializer.py:Serializer._get_types_from_obj"]}
{"id": "C18", "title": "Queues and stacks keep their elements", "statement": "Serializing a queue or a stack and deserializing it gives the same elements in the same order and leaves the caller's collection unchanged.", "quantifier": "every queue or stack of any element kinds", "why_tests_cant": "The element kind of the first element silently applies to the later ones.", "anchors": ["src/pypsrp/serializer.py:Serializer._serialize_que", "src/pypsrp/serializer.py:Serializer._serialize_stk", "src/pypsrp/serializer.py:Serializer._deserialize_que", "src/pypsrp/serializer.py:Serializer._deserialize_stk"]}
{"id": "C19", "title": "Secure strings round-trip and never leave in clear", "statement": "With an exchanged key, a secure string decrypts to the original text; the padded plaintext is always a whole number of cipher blocks; without a key serializing raises and produces no output.", "quantifier": "every string, every block cipher whose decryption inverts its encryption", "why_tests_cant": "Padding is length dependent and the cipher is arbitrary.", "anchors": ["src/pypsrp/serializer.py:Serializer._serialize_secure_string", "src/pypsrp/serializer.py:Serializer._deserialize_secure_string"]}
{"id": "C20", "title": "The public key blob encodes the generated key", "statement": "The blob sent in the key exchange is 276 bytes long and decodes (little endian exponent at 16, modulus at 20) to exactly the public exponent and modulus of the generated key.", "quantifier": "every exponent below 2^32 and every modulus below 2^2048", "why_tests_cant": "Moduli are random 2048 bit numbers.", "anchors": ["src/pypsrp/powershell.py:RunspacePool.exchange_keys"]}
{"id": "C21", "title": "Encrypted WinRM bodies round-trip", "statement": "Encrypting a request body and decrypting the resulting multipart body gives back the body, for single and multi chunk bodies.", "quantifier": "every body, every protocol, every sealing function that can be undone", "why_tests_cant": "Ciphertext is arbitrary binary data scanned by text based splitting.", "anchors": ["src/pypsrp/encryption.py:WinRMEncryption.wrap_message", "src/pypsrp/encryption.py:WinRMEncryption.unwrap_message"]}
{"id": "C22", "title": "CredSSP bodies are cut into bounded chunks without loss", "statement": "For CredSSP a body longer than 16384 bytes is sealed in chunks of at most 16384 bytes whose concatenation is the body, and only then the multi-encrypted content type is used; other protocols seal the body once.", "quantifier": "every body length and protocol", "why_tests_cant": "Chunk boundaries depend on the length.", "anchors": ["src/pypsrp/encryption.py:WinRMEncryption.wrap_message"]}
{"id": "C23", "title": "A decrypted length that differs from the declared length is always rejected", "statement": "If for any part the decrypted data does not have the length declared in that part's header, unwrapping raises and returns no data.", "quantifier": "every multipart body with any number of parts", "why_tests_cant": "Corruption can hit any part.", "anchors": ["src/pypsrp/encryption.py:WinRMEncryption.unwrap_message"]}
{"id": "C24", "title": "Version comparison is numeric, total and transitive", "statement": "The version test compares dotted versions numerically component by component with missing components read as zero: it is reflexive, transitive and total on well formed versions and agrees with the numeric lexicographic order.", "quantifier": "every pair/triple of dotted decimal versions of any length", "why_tests_cant": "Order laws quantify over all triples of unbounded lists.", "anchors": ["src/pypsrp/_utils.py:version_equal_or_newer"]}
{"id": "C25", "title": "Bundled scripts keep their code lines", "statement": "Loading a bundled script returns, in order, exactly the trimmed non-empty lines that are neither comment lines nor inside comment blocks.", "quantifier": "every script text", "why_tests_cant": "Scripts are arbitrary line sequences with nested comment states.", "anchors": ["src/pypsrp/_utils.py:get_pwsh_script"]}
{"id": "C26", "title": "Pool operations are accepted exactly in their legal states", "statement": "open, close, connect, disconnect, reset and metadata queries either do nothing, raise the documented state error without sending a request or changing state, or perform the request, depending only on the pool's state as documented.", "quantifier": "every pool state and operation", "why_tests_cant": "States arise from arbitrary histories including server initiated changes.", "anchors": ["src/pypsrp/powershell.py:RunspacePool.open", "src/pypsrp/powershell.py:RunspacePool.close", "src/pypsrp/powershell.py:RunspacePool.connect", "src/pypsrp/powershell.py:RunspacePool.disconnect", "src/pypsrp/powershell.py:RunspacePool.reset_runspace_state", "src/pypsrp/powershell.py:RunspacePool.get_command_metadata"]}
{"id": "C27", "title": "A closed pool stays closed and its shell is deleted at most once", "statement": "Over any sequence of user calls and server messages, once the user's close has returned every further close does nothing, open/connect/disconnect raise, and the shell delete request is sent at most once.", "quantifier": "every history of operations and server responses", "why_tests_cant": "It is a statement about all histories.", "anchors": ["src/pypsrp/powershell.py:RunspacePool.close", "src/pypsrp/powershell.py:RunspacePool.is_alive", "src/pypsrp/shell.py:WinRS.close"]}
{"id": "C28", "title": "Runspace queries get their own answers", "statement": "Each runspace count request uses a call id never used before on that pool, and a response is only ever applied to the request with the same call id, in whatever order responses arrive.", "quantifier": "every history of requests and every order of responses", "why_tests_cant": "Orders of responses and histories are unbounded.", "anchors": ["src/pypsrp/powershell.py:RunspacePool.min_runspaces", "src/pypsrp/powershell.py:RunspacePool.max_runspaces", "src/pypsrp/powershell.py:RunspacePool.get_available_runspaces", "src/pypsrp/powershell.py:RunspacePool.reset_runspace_state", "src/pypsrp/powershell.py:RunspacePool._process_runspacepool_availability"]}
{"id": "C29", "title": "Runspace limits change only when the server agreed", "statement": "On an open pool, setting the minimum or maximum runspaces changes the local value only after the server confirmed the request with that call id; a refusal raises and leaves the value.", "quantifier": "every value, every sequence of server responses before the confirmation", "why_tests_cant": "Responses may be preceded by arbitrarily many other messages.", "anchors": ["src/pypsrp/powershell.py:RunspacePool.min_runspaces", "src/pypsrp/powershell.py:RunspacePool.max_runspaces"]}
{"id": "C30", "title": "Asking for available runspaces does not change the pool's limits", "statement": "get_available_runspaces leaves min_runspaces and max_runspaces unchanged.", "quantifier": "every pool state and server answer", "why_tests_cant": "A test with an idle pool sees available = max and cannot notice.", "anchors": ["src/pypsrp/powershell.py:RunspacePool.get_available_runspaces"]}
{"id": "C31", "title": "Disconnect and reconnect keep track of running pipelines", "statement": "Disconnecting marks the pool and its registered pipelines disconnected and reconnecting lets each running one be connected again; pipelines that had already finished keep their final state.", "quantifier": "every set of registered pipelines in any states", "why_tests_cant": "It ranges over all mixes of pipeline states.", "anchors": ["src/pypsrp/powershell.py:RunspacePool.disconnect", "src/pypsrp/powershell.py:RunspacePool.connect", "src/pypsrp/powershell.py:RunspacePool.create_disconnected_power_shells", "src/pypsrp/powershell.py:PowerShell.connect_async"]}
{"id": "C32", "title": "Key exchange happens at most once and completes before use", "statement": "Over any history at most one public key is sent per pool; exchange_keys returning normally means a session key is installed.", "quantifier": "every history of calls, server messages and timeouts", "why_tests_cant": "The interesting cases are re-entrancy and timeouts at any point.", "anchors": ["src/pypsrp/powershell.py:RunspacePool.exchange_keys", "src/pypsrp/powershell.py:RunspacePool._process_encrypted_session_key"]}
{"id": "C33", "title": "A server request for the public key starts the key exchange", "statement": "When the server sends a public key request the client sends its public key.", "quantifier": "every pool history in which such a message arrives", "why_tests_cant": "Real servers rarely send it.", "anchors": ["src/pypsrp/powershell.py:RunspacePool._parse_responses", "src/pypsrp/powershell.py:RunspacePool.exchange_keys"]}
{"id": "C34", "title": "is_alive reports dead pools and only those", "statement": "is_alive returns False, and moves the pool to closed, exactly when the shell query reports a disconnected shell, one of the two listed faults, a refused new connection, a timeout or a connection error; other faults are raised with the state unchanged; otherwise it returns True with the state unchanged; after it returned False, close sends nothing.", "quantifier": "every fault code and outcome of the shell query, every pool state", "why_tests_cant": "Fault codes range over 32 bits.", "anchors": ["src/pypsrp/powershell.py:RunspacePool.is_alive", "src/pypsrp/_pool_manager.py:DisableNewConnectionsContext"]}
{"id": "C35", "title": "Pipeline operations are accepted exactly in their legal states", "statement": "begin_invoke, stop, close, connect and create_nested_power_shell are accepted, ignored or rejected with the documented error exactly according to the pipeline state; a rejected call sends nothing and changes nothing.", "quantifier": "every pipeline state and operation", "why_tests_cant": "States arise from arbitrary histories including server messages.", "anchors": ["src/pypsrp/powershell.py:PowerShell.begin_invoke", "src/pypsrp/powershell.py:PowerShell.stop", "src/pypsrp/powershell.py:PowerShell.close", "src/pypsrp/powershell.py:PowerShell.connect_async", "src/pypsrp/powershell.py:PowerShell.create_nested_power_shell"]}
{"id": "C36", "title": "Pipeline output and streams are complete and in order", "statement": "After any number of polls the output is the list of all output objects received for the pipeline in order, and each stream is the list of its records in order, independent of how messages are grouped into receives and of polls that time out.", "quantifier": "every message sequence, every grouping into receives, any number of timeouts in between", "why_tests_cant": "Groupings and timeouts are unbounded.", "anchors": ["src/pypsrp/powershell.py:PowerShell.poll_invoke", "src/pypsrp/powershell.py:PowerShell.end_invoke", "src/pypsrp/powershell.py:RunspacePool._parse_responses", "src/pypsrp/powershell.py:RunspacePool._receive"]}
{"id": "C37", "title": "A failing host callback loses no other message", "statement": "If handling one message raises, output objects received before it in the same receive are still delivered to the pipeline's output.", "quantifier": "every receive that mixes output and host calls", "why_tests_cant": "Needs an exception between messages of one receive.", "anchors": ["src/pypsrp/powershell.py:PowerShell.poll_invoke", "src/pypsrp/powershell.py:RunspacePool._parse_responses"]}
{"id": "C38", "title": "Each host call gets at most one answer, addressed to that call", "statement": "For every host call received, if a host is set and its method returns a value exactly one response is sent, with the call's own call id and method id, for the pipeline or pool it came from, on the prompt-response stream; otherwise none is sent.", "quantifier": "every sequence of host calls with any results", "why_tests_cant": "Sequences of calls are unbounded.", "anchors": ["src/pypsrp/powershell.py:RunspacePool._process_host_call", "src/pypsrp/powershell.py:PowerShell._process_pipeline_host_call", "src/pypsrp/powershell.py:RunspacePool._process_runspacepool_host_call"]}
{"id": "C39", "title": "All pipeline input is sent in order and closed exactly once", "statement": "invoke with input sends exactly the input objects in order as pipeline input followed by exactly one end of input message.", "quantifier": "every input: single object, list, or generator of objects and lists", "why_tests_cant": "Generators may yield any sequence, including nothing.", "anchors": ["src/pypsrp/powershell.py:PowerShell.begin_invoke"]}
{"id": "C40", "title": "had_errors tells whether the last invocation failed", "statement": "After an invocation finishes, had_errors is true exactly when the server reported that invocation as failed.", "quantifier": "every sequence of invocations on one pipeline object", "why_tests_cant": "It is about histories of invocations.", "anchors": ["src/pypsrp/powershell.py:PowerShell._process_pipeline_state", "src/pypsrp/powershell.py:PowerShell.clear_streams", "src/pypsrp/powershell.py:PowerShell.begin_invoke"]}
{"id": "C41", "title": "The pool's pipeline registry holds exactly the started, not yet closed pipelines", "statement": "A pipeline is registered with its pool from the moment it is invoked until it is closed or stopped, under its own id.", "quantifier": "every history of invoke, stop and close over any number of pipelines", "why_tests_cant": "Histories are unbounded.", "anchors": ["src/pypsrp/powershell.py:PowerShell._invoke", "src/pypsrp/powershell.py:PowerShell.stop", "src/pypsrp/powershell.py:PowerShell.close", "src/pypsrp/powershell.py:RunspacePool.pipelines"]}
{"id": "C42", "title": "A failed stop can be retried", "statement": "If the stop signal fails, the pipeline can be stopped again later.", "quantifier": "every failure point of the stop request", "why_tests_cant": "Needs fault injection at one exact point.", "anchors": ["src/pypsrp/powershell.py:PowerShell.stop"]}
{"id": "C43", "title": "Stream redirection is only requested from servers that support it", "statement": "merge_all and merge_<stream> set a redirection only if the negotiated protocol supports it, otherwise they raise (or skip) and leave the command unchanged; error redirection is always available.", "quantifier": "every protocol version, target and command", "why_tests_cant": "Versions are unbounded strings.", "anchors": ["src/pypsrp/powershell.py:PowerShell._set_merge_to", "src/pypsrp/powershell.py:PowerShell.merge_all", "src/pypsrp/powershell.py:PowerShell.merge_error", "src/pypsrp/complex_objects.py:Command"]}
{"id": "C44", "title": "Statements are split and rejoined without loss", "statement": "The commands of a pipeline sent to the server, grouped into statements, are the added commands in order with each statement ending exactly where add_statement was called (and at the end); reading the message back gives the same commands and statement ends.", "quantifier": "every non-empty list of commands with any statement ends", "why_tests_cant": "All groupings of an unbounded list.", "anchors": ["src/pypsrp/complex_objects.py:Pipeline._get_statements", "src/pypsrp/complex_objects.py:Pipeline._extra_cmds", "src/pypsrp/complex_objects.py:Pipeline._cmds"]}
{"id": "C45", "title": "Multi-dimensional arrays survive flattening", "statement": "Rebuilding an array from its flattened elements and dimension lengths gives the original array.", "quantifier": "every rectangular array of any rank and any non-zero dimensions", "why_tests_cant": "Rank and dimensions are unbounded.", "anchors": ["src/pypsrp/complex_objects.py:Array._build_array", "src/pypsrp/complex_objects.py:Array._get_list_entries", "src/pypsrp/complex_objects.py:Array._get_list_count"]}
{"id": "C46", "title": "Requests are retried a bounded number of times", "statement": "A request is sent at most 1 + reconnection_retries times because of connection failures; an error is raised only after the budget is used up, and the last error is the one raised.", "quantifier": "every retry budget and every sequence of transport outcomes", "why_tests_cant": "Outcome sequences are unbounded.", "anchors": ["src/pypsrp/wsman.py:_TransportHTTP.send"]}
{"id": "C47", "title": "No request body is sent in clear when message encryption is required", "statement": "When message encryption is in force, every request carrying a body that reaches the network carries the sealed form; the body is never sent in clear, also after a lost connection and renewed authentication.", "quantifier": "every sequence of transport outcomes over the life of a transport", "why_tests_cant": "It quantifies over all failure histories.", "anchors": ["src/pypsrp/wsman.py:_TransportHTTP.send", "src/pypsrp/encryption.py:WinRMEncryption.wrap_message"]}
{"id": "C48", "title": "Encryption settings are honoured", "statement": "Message encryption is used exactly when: always; or auto over plain HTTP; and never otherwise. Combinations that cannot be honoured (auto or always with an authentication that has no sealing, over HTTP / always) are refused when the connection is configured.", "quantifier": "every combination of scheme, encryption setting and authentication name", "why_tests_cant": "A decision table over free-form settings.", "anchors": ["src/pypsrp/wsman.py:_TransportHTTP.__init__"]}
{"id": "C49", "title": "A response is only accepted for the request it answers", "statement": "A WSMan call returns a body only if the response relates to the message id of that very request; any other response raises.", "quantifier": "every response and message id", "why_tests_cant": "Ids are random 128 bit values.", "anchors": ["src/pypsrp/wsman.py:WSMan.invoke"]}
{"id": "C50", "title": "Payload limit fits the envelope", "statement": "A payload of max_payload_size bytes, base64 encoded into an envelope, never exceeds max_envelope_size.", "quantifier": "every envelope size and header size", "why_tests_cant": "Rounding depends on the residue of the sizes.", "anchors": ["src/pypsrp/wsman.py:WSMan._calc_envelope_size", "src/pypsrp/wsman.py:WSMan.update_max_payload_size"]}
{"id": "C51", "title": "HTTP failures are reported by their cause", "statement": "HTTP 401 raises an authentication error, a server error that carries a fault raises that fault with its code, other errors raise the transport error with the same status and text; a successful response is returned unchanged.", "quantifier": "every status code and body", "why_tests_cant": "Status and body are unbounded.", "anchors": ["src/pypsrp/wsman.py:_TransportHTTP._send_request", "src/pypsrp/wsman.py:WSMan.invoke", "src/pypsrp/wsman.py:WSMan._parse_wsman_fault"]}
{"id": "C52", "title": "Only receives are repeated after a read timeout", "statement": "A request other than receive is never sent again because the reply did not arrive in time; a receive is sent at most 5 more times for that reason.", "quantifier": "every action and every sequence of read timeouts", "why_tests_cant": "Quantifies over outcome sequences.", "anchors": ["src/pypsrp/wsman.py:WSMan.receive", "src/pypsrp/wsman.py:_TransportHTTP.send"]}
{"id": "C53", "title": "WinRS shells are opened and deleted at most once", "statement": "Over any sequence of open and close calls with any server outcomes, create requests and delete requests alternate, a delete is only sent for an opened shell and close on an unopened shell sends nothing.", "quantifier": "every history of open/close with failures", "why_tests_cant": "Histories are unbounded.", "anchors": ["src/pypsrp/shell.py:WinRS.open", "src/pypsrp/shell.py:WinRS.close"]}
{"id": "C54", "title": "Process output is complete and in order", "statement": "After a process ends, stdout and stderr are the concatenation of all received chunks of the stream in order, whatever the grouping of chunks and however many polls timed out, and rc is the last reported exit code.", "quantifier": "every chunk sequence, grouping and timeouts", "why_tests_cant": "Groupings are unbounded.", "anchors": ["src/pypsrp/shell.py:WinRS.receive", "src/pypsrp/shell.py:Process.poll_invoke", "src/pypsrp/shell.py:Process.end_invoke"]}
{"id": "C55", "title": "Copy sends the whole file and its hash", "statement": "The items sent by copy decode to consecutive chunks of the file, whose concatenation is the file, followed by the hex SHA1 of the whole file as the last item; each chunk's base64 form fits the payload limit.", "quantifier": "every file content and buffer size", "why_tests_cant": "File sizes around buffer multiples and empty files.", "anchors": ["src/pypsrp/client.py:Client.copy"]}
{"id": "C56", "title": "Copy never installs a corrupted file", "statement": "The remote destination is replaced only if the SHA1 of the bytes received equals the hash received last; otherwise it is left as it was; the temporary file never remains.", "quantifier": "every sequence of items that reaches the remote script, also if the local file changes while being read", "why_tests_cant": "Corruption may hit any item.", "anchors": ["src/pypsrp/client.py:Client.copy", "src/pypsrp/pwsh_scripts/copy.ps1"]}
{"id": "C57", "title": "Fetch never installs a corrupted file", "statement": "fetch writes the destination only if the SHA1 of the decoded bytes equals the hash the server reported, the written bytes are those bytes, and the temporary file is removed on every path.", "quantifier": "every output of the remote script", "why_tests_cant": "Includes every failure point.", "anchors": ["src/pypsrp/client.py:Client.fetch"]}
{"id": "C58", "title": "Fetch returns the whole file", "statement": "For every remote file, fetch stores exactly the file's bytes locally.", "quantifier": "every file content, including empty files and partial reads on the server", "why_tests_cant": "Partial reads depend on the server.", "anchors": ["src/pypsrp/client.py:Client.fetch", "src/pypsrp/pwsh_scripts/fetch.ps1"]}
{"id": "C59", "title": "Authentication picks the strongest offered scheme", "statement": "The scheme used is the first of Negotiate, Kerberos, NTLM offered by the server that the configured provider can use; if none is offered, authentication is refused.", "quantifier": "every server header and provider", "why_tests_cant": "Headers are arbitrary text.", "anchors": ["src/pypsrp/negotiate.py:HTTPNegotiateAuth._check_auth_supported", "src/pypsrp/negotiate.py:HTTPNegotiateAuth.handle_401"]}
{"id": "C60", "title": "The authentication exchange relays every token in order", "statement": "During a 401 exchange each token of the security context is sent once in order, each server token is fed back once, and the exchange stops when the context is complete or the server sends no token.", "quantifier": "every security context behaviour and every server reply sequence", "why_tests_cant": "Exchanges have unbounded length.", "anchors": ["src/pypsrp/negotiate.py:HTTPNegotiateAuth.handle_401"]}
{"id": "C61", "title": "Disabling new connections is scoped", "statement": "Inside any nesting of the disable-new-connections scope new connections are refused, and after the outermost scope is left, normally or by exception, they are allowed again; other contexts are not affected.", "quantifier": "every nesting of scopes and exits", "why_tests_cant": "Nestings are unbounded.", "anchors": ["src/pypsrp/_pool_manager.py:DisableNewConnectionsContext", "src/pypsrp/_pool_manager.py:_raise_if_connections_disabled"]}
{"id": "C62", "title": "Host calls reach the documented host object", "statement": "A host call with method id 1..10 runs the host's method of that name, 11..26 the user interface's, 27..51 the raw user interface's, ids above 51 run nothing and return no value, and unknown ids below are rejected.", "quantifier": "every method id", "why_tests_cant": "Ids are arbitrary integers.", "anchors": ["src/pypsrp/host.py:PSHost.run_method", "src/pypsrp/complex_objects.py:HostMethodIdentifier"]}
{"id": "C63", "title": "Flag enumerations are rendered faithfully", "statement": "The text form of a flag value lists exactly the flags set in it, so different flag sets give different texts.", "quantifier": "every flag value", "why_tests_cant": "All combinations of the flags.", "anchors": ["src/pypsrp/complex_objects.py:RemoteStreamOptions", "src/pypsrp/complex_objects.py:CommandType"]}
{"id": "C64", "title": "Default host output keeps everything written in order", "statement": "The default host's stdout and stderr lists contain, in order, one entry for every write call with its text.", "quantifier": "every sequence of host write calls", "why_tests_cant": "Sequences are unbounded.", "anchors": ["src/pypsrp/host.py:PSHostUserInterface"]}
{"id": "C65", "title": "Server addresses are formatted into a valid endpoint", "statement": "An IPv6 literal is bracketed and any other host is used as is; the port and path are always present.", "quantifier": "every server name, port and path", "why_tests_cant": "Free-form text.", "anchors": ["src/pypsrp/wsman.py:_TransportHTTP._create_endpoint"]}
{"id": "C66", "title": "execute_cmd returns the exit code reported by the process", "statement": "execute_cmd returns the process' exit code, with -1 only if the server reported none, and always ends the process and deletes the shell, also on failure.", "quantifier": "every exit code and every failure point", "why_tests_cant": "Failure points and codes are unbounded.", "anchors": ["src/pypsrp/client.py:Client.execute_cmd"]}
{"id": "C67", "title": "execute_ps sets every environment entry before running the script", "statement": "The pipeline built by execute_ps has one statement per environment entry in order, each setting that key to that value, followed by one statement that runs the script.", "quantifier": "every environment and script", "why_tests_cant": "Environments are unbounded.", "anchors": ["src/pypsrp/client.py:Client.execute_ps"]}
{"id": "C68", "title": "Message sizes are raised only for capable servers and only from the default", "statement": "After the server's capability message the envelope limit becomes 512000 bytes exactly when the server speaks protocol 2.2 or newer and the user left the envelope size at its default; otherwise all limits stay as configured.", "quantifier": "every server version, every configured envelope size", "why_tests_cant": "the decision depends on every version text and every configured size", "anchors": ["src/pypsrp/powershell.py:_process_session_capability", "src/pypsrp/wsman.py:update_max_payload_size"]}
{"id": "C69", "title": "Raw user interface setters and getters agree", "statement": "After a host call that sets an attribute of the default raw user interface (colors, cursor position and size, window position, size and title, buffer size), the matching getter returns that value and every other getter returns what it returned before.", "quantifier": "every state of the host and every value set", "why_tests_cant": "Values are unbounded, and a wrong assignment shows only for a particular pair of methods.", "anchors": ["src/pypsrp/host.py:PSHostRawUserInterface"]}
{"id": "C70", "title": "execute_cmd asks for what it was given", "statement": "execute_cmd creates exactly one shell, of the kind cmd, whose request carries the given environment variables in order (none if none were given); if the shell opens, the next request runs the command line with no arguments.", "quantifier": "all commands, environments and sequences of server replies, including failures at any point", "why_tests_cant": "Environments and reply sequences are unbounded, and a lost variable shows only in the request body.", "anchors": ["src/pypsrp/client.py:execute_cmd", "src/pypsrp/shell.py:WinRS.open", "src/pypsrp/shell.py:WinRS.command"]}
{"id": "C71", "title": "Input of a process reaches it in order", "statement": "Whatever byte strings are sent to a process, each send request names that process and shell, decodes to the bytes given and carries the given end mark, in order; all are sent if no send fails, otherwise those up to the first failure and none after it.", "quantifier": "all processes, byte strings, end marks and sequences of server replies", "why_tests_cant": "Inputs and failure points are unbounded.", "anchors": ["src/pypsrp/shell.py:Process.send", "src/pypsrp/shell.py:WinRS.send"]}
{"id": "C72", "title": "A reopened shell asks for the same", "statement": "A shell that is opened, closed and opened again sends the same resource, options and body in both create requests.", "quantifier": "all shells and create responses", "why_tests_cant": "The response rewrites attributes of the shell, so the outcome depends on the whole content of the response.", "anchors": ["src/pypsrp/shell.py:WinRS.open", "src/pypsrp/shell.py:WinRS.close", "src/pypsrp/shell.py:WinRS._parse_shell_create"]}
{"id": "C73", "title": "sanitise_clixml returns the error text", "statement": "A text that does not start with the CLIXML mark is returned unchanged; for a CLIXML document the result is the concatenation of the decoded error records, whatever other records stand between them; a malformed document raises.", "quantifier": "all texts, documents and lists of error lines", "why_tests_cant": "Lines are arbitrary Unicode text, and joining them before decoding changes only particular neighbours.", "anchors": ["src/pypsrp/client.py:sanitise_clixml"]}
{"id": "C74", "title": "Requests fit the size limit that they announce", "statement": "Every request of a runspace pool that carries a block within the payload limit (create, command, send) is, as UTF-8 XML, no larger than the MaxEnvelopeSize in its own header, also with the 21 bytes that blocks may exceed the limit by after the limits are raised.", "quantifier": "all connections, envelope sizes, configuration names, ids and blocks", "why_tests_cant": "The size depends on every name in the request and on the residue of the block size; only full blocks show an overrun.", "anchors": ["src/pypsrp/wsman.py:WSMan._calc_envelope_size", "src/pypsrp/wsman.py:WSMan._create_header", "src/pypsrp/powershell.py:RunspacePool.open", "src/pypsrp/powershell.py:PowerShell._invoke"]}
{"id": "C75", "title": "Every request names its operation, target and session", "statement": "Each WSMan request carries exactly one action, resource, message id, session id, address, reply address, locale pair and size limit, with the values of the call and the connection; its options and selectors are those given, in order, with their attributes; its body is the element given.", "quantifier": "all connections, actions, resources, bodies, options, selectors and timeouts", "why_tests_cant": "Option lists, attribute dictionaries and bodies are unbounded.", "anchors": ["src/pypsrp/wsman.py:WSMan.invoke", "src/pypsrp/wsman.py:WSMan._create_header", "src/pypsrp/wsman.py:_WSManSet.pack"]}
{"id": "C76", "title": "Shell requests ask for what the caller gave", "statement": "Opening a shell, running a command, receiving, sending, signalling and closing send one request each, whose XML names that shell and has every given value once: attributes, environment, options, executable, arguments in order, stream, data, end mark, code, command id; the create request of a pool carries the first block and protocol version 2.3.", "quantifier": "all shells, values and server replies", "why_tests_cant": "Values are unbounded and optional in every combination.", "anchors": ["src/pypsrp/shell.py:WinRS.open", "src/pypsrp/shell.py:WinRS.command", "src/pypsrp/shell.py:WinRS.receive", "src/pypsrp/shell.py:WinRS.send", "src/pypsrp/shell.py:WinRS.signal", "src/pypsrp/shell.py:WinRS.close", "src/pypsrp/powershell.py:RunspacePool.open"]}
{"id": "C77", "title": "An XML reader gets back the request that was built", "statement": "The bytes of a request decode as UTF-8 and read, by the rules of XML 1.0, as the elements, attributes and texts that were put in, with every prefix declared as the namespace that the library uses for it.", "quantifier": "all requests of shells and all texts in them", "why_tests_cant": "Texts are arbitrary Unicode; only particular characters are lost.", "anchors": ["src/pypsrp/wsman.py:WSMan.invoke", "src/pypsrp/wsman.py:WSMan._create_header", "src/pypsrp/shell.py:WinRS.command"]}
{"id": "C78", "title": "The client waits longer than it allows the server to take", "statement": "A request announces the operation timeout that was asked for, and the HTTP request waits longer than that for an answer.", "quantifier": "all timeouts and connection settings", "why_tests_cant": "Depends on the relation of three independent numbers.", "anchors": ["src/pypsrp/wsman.py:WSMan.invoke", "src/pypsrp/wsman.py:WSMan._create_header", "src/pypsrp/wsman.py:_TransportHTTP._send_request"]}
{"id": "C79", "title": "Objects of the message and record classes survive the wire", "statement": "An object of any class in the tables of complex_objects.py and messages.py whose attributes are of the declared kinds is serialized to a document that XML can carry, and deserializing it as an object of that class gives the same attributes, nested objects included.", "quantifier": "all classes and all attribute values of the declared kinds, nested to any depth", "why_tests_cant": "Values and nesting are unbounded, and a property that is found under another's name shows only for particular values.", "anchors": ["src/pypsrp/serializer.py:Serializer._serialize_obj", "src/pypsrp/serializer.py:Serializer._deserialize_obj", "src/pypsrp/messages.py", "src/pypsrp/complex_objects.py"]}
{"id": "C80", "title": "A typed object is read from its own elements", "statement": "Whatever document arrives, each property of the object read from it is the value of the first element with its name and kind; it is None only if there is no such element and the property is optional or null; a missing mandatory property raises; elements that the class does not know change nothing.", "quantifier": "all documents, classes and reader states", "why_tests_cant": "Documents come from the server and have arbitrary extra elements in any place.", "anchors": ["src/pypsrp/serializer.py:Serializer._deserialize_obj"]}
{"id": "C81", "title": "Constructors assign what the serializer reads", "statement": "An object constructed with keyword arguments can be serialized, and each of its properties is the argument of that name, None if it was not given; what the other side reads are those arguments.", "quantifier": "all classes of the tables and all arguments", "why_tests_cant": "A misspelt attribute fails only for that class and only when it is serialized.", "anchors": ["src/pypsrp/complex_objects.py", "src/pypsrp/messages.py", "src/pypsrp/serializer.py:Serializer._serialize_obj"]}
{"id": "C82", "title": "Opening a pool sends its settings and the host's", "statement": "The message that opens a runspace pool is a document from which the other side reads exactly the pool's limits, thread options, apartment state, application arguments and, depending on whether the host has a user interface and a screen, the host's flags and the ten settings of the screen, each with its type, under the numbers of the protocol; values without a name raise before anything is sent.", "quantifier": "all limits, options, hosts, screen settings and plain application arguments", "why_tests_cant": "The settings are integers and texts from the caller; tests compare one recorded message.", "anchors": ["src/pypsrp/messages.py:InitRunspacePool", "src/pypsrp/complex_objects.py:HostInfo", "src/pypsrp/complex_objects.py:_HostDefaultData"]}
{"id": "C83", "title": "Starting a pipeline sends what was built", "statement": "For every sequence of calls that builds commands, the message that starts the pipeline is a document from which the other side reads exactly those statements, commands, parameters and redirections, with the redirections of later protocol versions only if the negotiated version has them, and the options of the invocation.", "quantifier": "all sequences of building calls, negotiated versions, plain parameter values, hosts and options", "why_tests_cant": "There are unboundedly many pipelines; tests compare a few recorded messages.", "anchors": ["src/pypsrp/powershell.py:PowerShell.begin_invoke", "src/pypsrp/messages.py:CreatePipeline", "src/pypsrp/complex_objects.py:Pipeline", "src/pypsrp/complex_objects.py:Command"]}
{"id": "C84", "title": "A message survives the whole path to the other side", "statement": "Every object that can be serialized without forbidden characters is packed into a message whose bytes, cut into fragments by any sender and grouped in any way on the wire, come out whole at the other side, where the header is the one that was packed and the body, decoded as UTF-8 and parsed as XML, is the document that the serializer wrote; unpacking returns the value for plain input and output, and the attributes for the objects of the message classes.", "quantifier": "all values, message kinds, pool and pipeline ids, fragment sizes, groupings of blocks", "why_tests_cant": "There are unboundedly many values and fragment boundaries; the layers are tested one by one on recorded messages, and the XML library is trusted to connect them.", "anchors": ["src/pypsrp/messages.py:Message.pack", "src/pypsrp/messages.py:Message.unpack", "src/pypsrp/serializer.py:Serializer.serialize", "src/pypsrp/powershell.py:Fragmenter"]}
{"id": "C85", "title": "Pools found on the server can be taken over", "statement": "Listing the pools on a server gives one disconnected pool for each listed shell, with its id, in the order of the listing, with one disconnected pipeline for each of its commands; only enumerations are sent, one for the shells and one for the commands of each shell, filtered by its id. Connecting to such a pool sends the two connection messages whole and names the shell and its configuration, as do all requests afterwards: receiving, running commands, disconnecting, reconnecting, deleting, asking for its state and connecting to a pipeline, which names the command.", "quantifier": "all listings, ids, answers of the server, message sizes and limits, requests after connecting", "why_tests_cant": "A test uses the recorded answers of one server with one kind of shell, and replays them whatever selectors or configuration the requests name.", "anchors": ["src/pypsrp/powershell.py:RunspacePool.get_runspace_pools", "src/pypsrp/powershell.py:RunspacePool.connect", "src/pypsrp/powershell.py:RunspacePool.disconnect", "src/pypsrp/powershell.py:PowerShell.connect_async", "src/pypsrp/shell.py:WinRS._get_shell"]}
{"id": "C86", "title": "The HTTP session is set up as the arguments say", "statement": "A session is built exactly if the authentication has what it needs (user name and password for basic and CredSSP, certificate, key and TLS for certificates). TLS certificates are verified as the argument cert_validation says, proxies are used as proxy and no_proxy say, and the options of negotiate and CredSSP reach the authentication with their documented defaults. With basic authentication the server reads the given credentials from the first request, with a certificate the request names it as the identity, the other authentications send nothing before they are asked.", "quantifier": "all combinations of arguments, environments (bundle variables, proxy variables, netrc), hosts, credentials", "why_tests_cant": "Tests build a handful of sessions and look at attributes; they do not send requests through requests' merging of session, environment and netrc.", "anchors": ["src/pypsrp/wsman.py:_TransportHTTP._build_session", "src/pypsrp/wsman.py:_TransportHTTP._build_auth_negotiate", "src/pypsrp/wsman.py:_TransportHTTP._build_auth_credssp", "src/pypsrp/wsman.py:_TransportHTTP._build_auth_certificate", "src/pypsrp/wsman.py:_TransportHTTP._build_auth_basic"]}
{"id": "C87", "title": "Connections are opened only where and when they may be", "statement": "A new connection is refused exactly while a scope that disables new connections is open in the current context, with and without a proxy; a new TLS connection can read the key of the client certificate. A message is sent to the address of the endpoint and nowhere else.", "quantifier": "all settings, proxies, hosts, nestings of scopes in all contexts, answers of the server", "why_tests_cant": "Tests replay recorded exchanges; they open no connections, use no proxy and meet no redirects.", "anchors": ["src/pypsrp/_pool_manager.py:create_request_adapter", "src/pypsrp/_pool_manager.py:DisableNewConnectionsContext", "src/pypsrp/wsman.py:_TransportHTTP.send", "src/pypsrp/wsman.py:_TransportHTTP._send_request"]}
{"id": "C88", "title": "Authentication is for the server and bound to its certificate", "statement": "When the server asks for authentication, the security context is made for the host of the endpoint (or the name given instead), with the credentials, service, delegation and wrapping of the arguments; with TLS it is bound to the certificate of the server as RFC 5929 says, unless that is turned off. The context is found again when messages are to be encrypted. No other server is authenticated to.", "quantifier": "all servers (names, IPv6 addresses), ports, paths, settings, certificates and their signature algorithms, answers of the server", "why_tests_cant": "Tests use recorded exchanges with one host name in ASCII, no redirects, and certificates for a few algorithms.", "anchors": ["src/pypsrp/negotiate.py:HTTPNegotiateAuth.handle_401", "src/pypsrp/negotiate.py:HTTPNegotiateAuth._get_cbt_data", "src/pypsrp/negotiate.py:HTTPNegotiateAuth._get_certificate_hash", "src/pypsrp/_utils.py:get_hostname", "src/pypsrp/wsman.py:_TransportHTTP.send"]}
{"id": "C89", "title": "The size limit of the server is learned and kept", "statement": "When a connection asks its server for the maximum envelope size, it sends one request for the configuration and nothing else; afterwards it announces the limit of the server and every send request with a block within the payload size fits it. An answer without a usable limit is an error and leaves the sizes as they were. The limit holds for all pools of the connection.", "quantifier": "all limits in decimal, connections, message ids, blocks, stream and configuration names, answers and errors of the server", "why_tests_cant": "Tests replay one recorded configuration and compare two numbers; they send nothing afterwards and have no answer without the element.", "anchors": ["src/pypsrp/wsman.py:WSMan.update_max_payload_size", "src/pypsrp/wsman.py:WSMan.get_server_config", "src/pypsrp/wsman.py:WSMan._calc_envelope_size", "src/pypsrp/powershell.py:RunspacePool._process_session_capability"]}
{"id": "C90", "title": "Errors say what the server said", "statement": "The message of a fault names every detail of the server under its own label and no other; the message of a transport error tells status and content; the message of a refused call tells the call, the state and the expected states; the error of a failed script has the text of every error record. Each message can be read back.", "quantifier": "all details, codes, contents, states, calls, error texts", "why_tests_cant": "Tests compare a few fixed messages and use only the states and details of the recorded exchanges.", "anchors": ["src/pypsrp/exceptions.py:WSManFaultError.message", "src/pypsrp/exceptions.py:WinRMTransportError.message", "src/pypsrp/exceptions.py:_InvalidStateError.message", "src/pypsrp/client.py:_handle_powershell_error", "src/pypsrp/wsman.py:WSMan._parse_wsman_fault"]}
{"id": "C91", "title": "with statements clean up", "statement": "After a with statement over a runspace pool, whatever its body did, every shell that was made was deleted and the pool is over; the result is the body's, value or exception. After a with statement over a pipeline, a finished pipeline was terminated and forgotten and the result is the body's. execute_ps makes one shell and one command, deletes the shell, and returns exactly what the server sent for that command.", "quantifier": "all programs of calls, decisions, own exceptions, try and with statements as bodies; all servers, hosts, clocks; all scripts", "why_tests_cant": "Tests leave the statement after a successful body against a recorded server; no test raises in a body, loses the connection while opening, or breaks the pool.", "anchors": ["src/pypsrp/powershell.py:RunspacePool.__enter__", "src/pypsrp/powershell.py:RunspacePool.__exit__", "src/pypsrp/powershell.py:PowerShell.__exit__", "src/pypsrp/client.py:Client.execute_ps"]}
{"id": "C92", "title": "results are read from the bytes of the server", "statement": "The messages that the pool handles are the messages of the server, whatever the fragments of each message, however the fragments of several messages are mixed, and whatever streams and answers they are in. If the server says at last that the pool is open and at last that the pipeline is over, execute_ps returns, with what was written, in order, whether it failed, and one receive per answer, however many receives time out. The handlers read the state, limits, versions, availability and key from the properties of these names, wherever they stand in the object.", "quantifier": "all fragmentations and distributions over streams and answers, all routine messages, all time-outs while running; all objects with the properties named", "why_tests_cant": "Tests replay one recorded fragmentation and hand parsed messages to the handlers.", "anchors": ["src/pypsrp/powershell.py:RunspacePool._receive", "src/pypsrp/powershell.py:RunspacePool._parse_responses", "src/pypsrp/powershell.py:Fragmenter.defragment", "src/pypsrp/messages.py:Message.unpack", "src/pypsrp/client.py:Client.execute_ps"]}
{"id": "C93", "title": "Command metadata is asked for and read", "statement": "get_command_metadata sends the documented request for the names, types and namespaces, runs one pipeline until the server says that it is over, and returns one CommandMetadata per object after the count, in order, with the name, namespace, help address, type, output type and parameters that the object has, wherever they stand in it.", "quantifier": "all names, types, namespaces; all distributions of the messages over the answers and all time-outs; all objects with these properties", "why_tests_cant": "Tests replay one recorded exchange with one command; the order of the properties, failing pipelines and other objects are not tried.", "anchors": ["src/pypsrp/powershell.py:RunspacePool.get_command_metadata", "src/pypsrp/messages.py:GetCommandMetadata", "src/pypsrp/complex_objects.py:CommandMetadata"]}
{"id": "C94", "title": "The default host answers every call", "statement": "On the default host classes every documented method takes the documented number of arguments: with another number the call raises TypeError and changes nothing. Methods that need a user or a screen raise NotImplementedError, methods that only notify return null, and neither changes the host. The questions about the host are answered with its attributes, and the exit code is kept.", "quantifier": "all 51 methods, all argument lists, all states of the host", "why_tests_cant": "Tests call a few methods once with the right arguments.", "anchors": ["src/pypsrp/host.py:PSHost", "src/pypsrp/host.py:PSHostUserInterface", "src/pypsrp/host.py:PSHostRawUserInterface"]}
{"id": "C95", "title": "Documents have the documented layout", "statement": "Every object of every message, record and enumeration class is written as one element with the documented type names, the text, the number of an enumeration, and the properties in their groups: for every property one element with its documented name and kind, in the documented order, null for None, nothing for None if it is optional, and no other elements; lists and dictionaries have the documented type names and one element per item. On reading, a property that is not optional must be present, and an optional one that is absent is None.", "quantifier": "all classes of the library, all attribute values, all documents", "why_tests_cant": "Tests compare a few documents; a name, kind or optional mark that is wrong on both sides is not seen by reading back what was written.", "anchors": ["src/pypsrp/complex_objects.py", "src/pypsrp/messages.py", "src/pypsrp/serializer.py:Serializer.serialize"]}
{"id": "C96", "title": "Objects that a server writes are read", "statement": "Every document that a PowerShell server may write for a value is read as that value: null, strings with any escapes, whole numbers, truth values, characters, dates, durations, decimals, versions, bytes and ids; objects of any unknown type with their type names (written out, repeated by reference, or absent), text, primitive value, adapted and extended properties in their order; arrays, array lists, generic lists and collections; hashtables and generic dictionaries; and references to objects written before. The same holds for the bytes of a message with such a document. An object that claims a class of the library but lacks its properties is read as a generic object.", "quantifier": "all values, all their documents: any type names, reference ids, escapes, nesting, sharing", "why_tests_cant": "Tests read a few recorded documents; the choice of the reader depends on the type names, on references to earlier type names and on where the element stands.", "anchors": ["src/pypsrp/serializer.py:Serializer.deserialize", "src/pypsrp/serializer.py:Serializer._deserialize_dynamic_obj", "src/pypsrp/messages.py:Message.unpack"]}
{"id": "C97", "title": "The documents that open a pool and start a pipeline are exactly those of the protocol", "statement": "INIT_RUNSPACEPOOL and CREATE_PIPELINE are written as the one document the protocol describes: every element with its tag, name, text and type names in order, for any limits, thread options, apartment states, host with any screen, application arguments, commands with any names, flags, merges and parameters, history, invocation options and input, with the fields that depend on the protocol version of the server. Reference ids and repeated type names are resolved first, so that two documents that differ only in them count as the same.", "quantifier": "all pool settings, hosts, arguments, command lists, parameter values (null, truth values, numbers, texts, ids, bytes, lists and dictionaries of these), versions of the server", "why_tests_cant": "The tests compare recorded documents of a few pipelines; every combination of settings gives another document.", "anchors": ["src/pypsrp/powershell.py:RunspacePool.open", "src/pypsrp/powershell.py:PowerShell.begin_invoke", "src/pypsrp/complex_objects.py:Pipeline", "src/pypsrp/complex_objects.py:Command", "src/pypsrp/serializer.py:Serializer.serialize"]}
{"id": "C98", "title": "Host calls and their answers as documents", "statement": "The bytes of a host call of the server, for the pool or for a pipeline, are read as the call: its number, the id of the method, and the arguments with null, texts, numbers, truth values and objects with numbers, whether or not the objects have type names. The answer is one document with the number and the method id of the call, with its documented type names and text, and the value that the method of the host returned for exactly these arguments: texts, numbers, truth values, versions, ids, colors, positions and sizes in their documented form. A method that returns null is not answered, and when a method raises nothing is sent.", "quantifier": "all hosts, all methods the host has, all arguments, all documents a server may write for the call", "why_tests_cant": "The tests replay two or three recorded calls with a fixed host; each method, argument form and result gives another document.", "anchors": ["src/pypsrp/powershell.py:RunspacePool._process_host_call", "src/pypsrp/host.py:PSHost.run_method", "src/pypsrp/messages.py:RunspacePoolHostCall", "src/pypsrp/messages.py:PipelineHostResponse"]}
{"id": "C99", "title": "Numbers, ids and bytes are written as the standards say", "statement": "The text of a number is its usual decimal notation with a sign for negative numbers and no leading zeros. Bytes are written as the base64 of RFC 4648: a character for each group of six bits, padded to groups of four. The text of an id has its 32 hexadecimal digits in lower case in groups of 8, 4, 4, 4 and 12, and in binary data its first three groups are reversed. The code units of a text are those of RFC 2781. A number in a header has its width and byte order, and is refused exactly if it does not fit.", "quantifier": "all numbers, byte sequences, ids, texts, widths", "why_tests_cant": "Tests show a few encodings; an encoder and a decoder that share a mistake agree with each other on every value.", "anchors": ["src/pypsrp/serializer.py:Serializer.serialize", "src/pypsrp/messages.py:Message.pack", "src/pypsrp/powershell.py:Fragment.pack"]}
{"id": "C100", "title": "Documents are read by their namespaces", "statement": "A document is understood by the namespaces of its names, whatever prefixes it uses, wherever it declares them, and whether or not it uses default namespaces. Attributes without a prefix have no namespace. The prefixes of the library stand for the namespaces of the protocol, one prefix for each, and a search with these prefixes finds exactly the elements with these namespaces. Every request of a shell, and the creation of a pool, is for such a reader the envelope that was meant. An answer over HTTP that relates to its request is returned as the elements that are meant, sealed or not.", "quantifier": "all documents, all prefixes and declarations, all paths of the library, all requests with clean texts", "why_tests_cant": "Recorded responses all come from one server that always writes the same prefixes; other prefixes and nested declarations never occur in the tests.", "anchors": ["src/pypsrp/wsman.py:NAMESPACES", "src/pypsrp/wsman.py:WSMan.invoke", "src/pypsrp/wsman.py:WSMan._parse_wsman_fault"]}
{"id": "C101", "title": "The messages of a server over HTTP", "statement": "A pool polls over HTTP, with sealed or plain requests and responses. Each response is a document with fragments, with any prefixes, or a fault with a code. The pool sees the codes of the faults and, in order, exactly the messages that the fragments of all documents make. `execute_ps` returns the objects and records of these messages: the result does not depend on how messages are cut into fragments and mixed, on how fragments are distributed over the responses, on sealing, on prefixes, and on polls that time out, and the requests that were sent are determined by the number of polls.", "quantifier": "all servers that answer every poll, all cuts and orders of fragments, all distributions over responses, all sealing contexts, all prefixes", "why_tests_cant": "Tests replay recorded, unsealed responses; the ways to cut, mix, seal and write the messages are without number.", "anchors": ["src/pypsrp/wsman.py:WSMan.receive", "src/pypsrp/shell.py:WinRS.receive", "src/pypsrp/powershell.py:RunspacePool._receive", "src/pypsrp/client.py:Client.execute_ps", "src/pypsrp/encryption.py:WinRMEncryption.unwrap_message"]}
{"id": "C102", "title": "The requests of a pipeline as a server reads them", "statement": "Starting a pipeline and feeding it sends one command request and then send requests. Each of them is a document that, read with its namespaces, is a request to the shell of the pool. The command request has the id of the pipeline and, as its only argument, the base64 text of the first block; each send request has the stream stdin, the id of the server's answer to the command request (or the id before, if it has none) and the base64 text of the next block. The blocks are the fragments of the message that starts the pipeline and of all messages of the input, in their order. If the server does not answer or answers with an error, the requests before that are the same ones. The create request of a pool has the fragments of the two messages that open it.", "quantifier": "all messages and inputs, all fragment sizes, all connections and shells with legal texts, all answers of the server", "why_tests_cant": "Tests replay a fixed sequence of requests against recorded responses with the ids and the sizes of the recording, and never read the requests as a server does.", "anchors": ["src/pypsrp/powershell.py:PowerShell._invoke", "src/pypsrp/powershell.py:PowerShell.begin_invoke", "src/pypsrp/shell.py:WinRS.send", "src/pypsrp/shell.py:WinRS.command", "src/pypsrp/powershell.py:RunspacePool.open"]}
{"id": "C103", "title": "A command over HTTP", "statement": "`execute_cmd` over HTTP: if a server answers the documents of a create, a command, polls, a signal and a delete with documents that relate to them, sealed or not and with any prefixes, polls without output with a fault, then `execute_cmd` makes just these requests, all but the first to the address and with the selectors of the server's answer to the create, and returns the bytes of both streams of all answers, decoded, and the exit code of the last, or -1 without one. Each of the requests is a document of the request and has the action that retries are decided by.", "quantifier": "all commands, addresses, ids and outputs, any number of polls, all contents of the answers, all groupings of the output, sealed and plain connections", "why_tests_cant": "Tests replay one recorded exchange each, with one address and one grouping of the output, and their answers do not pass through encryption and namespaces together.", "anchors": ["src/pypsrp/client.py:Client.execute_cmd", "src/pypsrp/shell.py:Process.invoke", "src/pypsrp/shell.py:WinRS.open", "src/pypsrp/wsman.py:WSMan.invoke", "src/pypsrp/wsman.py:_TransportHTTP.send"]}
{"id": "C104", "title": "Tokens and boundaries in response headers", "statement": "The token taken from `WWW-Authenticate` is the one of the first challenge with a scheme of the client (Kerberos, Negotiate, NTLM, in any case): the text after the name, without spaces and up to the next comma. There is none iff no such name stands in the header. What the context gets is the bytes of which this text is base64. The boundary taken from `Content-Type` is the value of its parameter `boundary`, wherever that stands and with or without quotes.", "quantifier": "all header texts, all tokens, all boundaries", "why_tests_cant": "Tests use a few recorded headers, with one challenge and with the boundary as the last parameter.", "anchors": ["src/pypsrp/negotiate.py:HTTPNegotiateAuth._get_auth_token", "src/pypsrp/negotiate.py:HTTPNegotiateAuth.__init__", "src/pypsrp/wsman.py:_TransportHTTP.send"]}
{"id": "C105", "title": "Reading base64 texts", "statement": "`base64.b64decode`, as it is used for streams, secure strings, byte arrays, session keys, connect responses and tokens, gives bytes iff the text, without the characters outside the alphabet and up to the padding that ends a group, has the bits of these bytes; otherwise it raises `binascii.Error`. Given a string, it raises `ValueError` if that is not ASCII. The characters outside the alphabet may stand anywhere, so a text of RFC 4648 that is broken into lines gives the same bytes.", "quantifier": "all texts, all bytes, all line breaks", "why_tests_cant": "Tests decode a few well-formed texts, and the padding rules of a lenient decoder show only on texts that are not well-formed.", "anchors": ["src/pypsrp/shell.py:Process.poll_invoke", "src/pypsrp/serializer.py:Serializer._deserialize_secure_string", "src/pypsrp/negotiate.py:HTTPNegotiateAuth._get_auth_token", "src/pypsrp/client.py:Client.fetch"]}
{"id": "C106", "title": "Reading whole numbers", "statement": "`int()` of a text, as it is used for exit codes, envelope limits, whole numbers of CLIXML, lengths of sealed parts and parts of versions, gives a number iff the text is white space, a sign or none, digits with single underscores between them, and white space, and says that number; all other texts raise `ValueError`. An exit code is the number its text says, 0 for an empty element, none without one. The element of a whole number in CLIXML is read as the number that its text says if it is one of the type, and raises otherwise.", "quantifier": "all texts, all answers to a receive, all elements of whole numbers", "why_tests_cant": "Tests read a few decimal numbers; which other texts are numbers, and that no two readings of a text are possible, is a statement about all texts.", "anchors": ["src/pypsrp/shell.py:Process.poll_invoke", "src/pypsrp/serializer.py:Serializer.deserialize", "src/pypsrp/wsman.py:WSMan.update_max_payload_size", "src/pypsrp/_utils.py:version_equal_or_newer"]}
