{"id": "C01", "title": "Accepted HTTP methods", "statement": "SanitizeMethodPath succeeds exactly when the method, lower-cased, is one of get, put, post, delete, options, head, patch, trace, and on success it returns that lower-case name. The verdict never depends on the path.", "quantifier": "every method string and every path string", "why_tests_cant": "The method is an arbitrary string; tests try a handful of spellings.", "anchors": ["operation.go:SanitizeMethodPath"]}
{"id": "C02", "title": "Placeholders and cleaned path", "statement": "The path is cut, leftmost first, into literal text and placeholders {name} or {name:pattern}; SanitizeMethodPath returns the names in order, and the path with every {name:pattern} replaced, in its own place, by {name} and everything else kept character for character.", "quantifier": "every path string, including nested braces, repeated placeholders and unbalanced braces", "why_tests_cant": "The code rewrites by first-occurrence string replacement; only a proof shows that the first occurrence is always the matched place.", "anchors": ["operation.go:regexFindPathParameter", "operation.go:SanitizeMethodPath"]}
{"id": "C03", "title": "Sanitising is idempotent", "statement": "Sanitising a method and path that were already produced by SanitizeMethodPath changes nothing: same method, same path, same parameter names.", "quantifier": "every method and path string accepted by SanitizeMethodPath", "why_tests_cant": "Removing a pattern could create a new placeholder out of left-over text; ruling this out needs all strings.", "anchors": ["operation.go:SanitizeMethodPath"]}
{"id": "C04", "title": "Parameter names are clean", "statement": "Every parameter name returned by SanitizeMethodPath is non-empty and contains neither '}' nor ':', and {name} occurs in the returned path.", "quantifier": "every method and path string", "why_tests_cant": "Ranges over all strings.", "anchors": ["operation.go:SanitizeMethodPath"]}
{"id": "C05", "title": "Path parameter validation is exact", "statement": "Adding an operation is accepted by parameter validation exactly when (a) no two inline parameters share location and name, (b) every inline path parameter has a placeholder in the URL and (c) every placeholder has an inline path parameter. For the locations query, path, header and cookie. For any other strings, the same with locations and names compared as one string, name followed by location.", "quantifier": "every list of inline or referenced parameters and every set of placeholders", "why_tests_cant": "Combinations of duplicates, missing and undefined parameters are unbounded.", "anchors": ["openapi3/helper.go:validatePathParams", "openapi31/helper.go:validatePathParams"]}
{"id": "C06", "title": "Validation verdict does not depend on map order", "statement": "Whether validation accepts, and the multiset of complaints it reports, do not depend on the order in which Go iterates the placeholder set. A placeholder without path parameter is reported once, however often it is in the URL.", "quantifier": "every iteration order of the placeholder map", "why_tests_cant": "Go randomises map iteration; a test run sees one order.", "anchors": ["openapi3/helper.go:validatePathParams", "openapi31/helper.go:validatePathParams"]}
{"id": "C07", "title": "AddOperation stores exactly the operation", "statement": "When Spec.AddOperation returns nil, the operation found at the sanitised path and method is the one given, completed with a 204 'No Content' response if and only if it had no responses; every other path and method is unchanged, and so is the rest of the document.", "quantifier": "every document, method, path and operation", "why_tests_cant": "A frame property: all other paths and methods, for all documents.", "anchors": ["openapi3/helper.go:AddOperation", "openapi31/helper.go:AddOperation"]}
{"id": "C08", "title": "What a failing AddOperation changes", "statement": "When Spec.AddOperation returns an error, every path and method of the document holds what it held before. In OpenAPI 3.1 there is exactly one exception: if the path is written with a pattern, an operation is stored under the path without it and none under the path as written, the stored operation is replaced by the rejected one; everything else stays.", "quantifier": "every document, method, path and operation", "why_tests_cant": "All failure causes at all states.", "anchors": ["openapi3/helper.go:AddOperation", "openapi31/helper.go:AddOperation"]}
{"id": "C09", "title": "When AddOperation replaces an existing operation", "statement": "Let an operation be stored for the method and the path without its patterns. AddOperation then succeeds, and replaces it, exactly if the path is written with a pattern and the new operation is valid there; so adding GET /u/{id:[0-9]+} twice succeeds. With a path without patterns it always fails and keeps the stored operation.", "quantifier": "every document reached by any history of calls, every method, path and operation", "why_tests_cant": "Needs all path spellings and histories; the existing tests use plain paths.", "anchors": ["openapi3/helper.go:AddOperation", "openapi31/helper.go:AddOperation"]}
{"id": "C10", "title": "Every stored operation is consistent with its path", "statement": "Starting from an empty document, after any sequence of calls, successful or not, every stored 3.0 operation has unique parameters and path parameters that agree with the placeholders of its path, and is stored under one of the eight methods and a path without patterns. In 3.1 an operation is stored for a path and method exactly if some call about it succeeded, its path has no pattern, and it is consistent in the same sense if the last call about it succeeded.", "quantifier": "every history of AddOperation, SetupOperation, AddWebhook and security calls with arbitrary setup functions", "why_tests_cant": "A reachable-state invariant over unbounded histories.", "anchors": ["openapi3/helper.go:AddOperation", "openapi3/helper.go:SetupOperation", "openapi31/helper.go:AddOperation", "openapi31/helper.go:SetupOperation"]}
{"id": "C11", "title": "What SetupOperation changes", "statement": "A successful SetupOperation stores what the setup functions made of the stored operation, or of an empty one, and changes nothing else. In OpenAPI 3.0, when it returns an error the document is unchanged (for functions that write into maps or through pointers of the stored operation see C88). In 3.1 the functions edit the stored operation in place: after an error it is what the functions that ran left of it, valid or not; nothing is stored if nothing was; everything else stays. The first function that fails decides the error and the later ones do not run.", "quantifier": "every document, method, path and list of setup functions (3.0: that assign fields of the operation they are given)", "why_tests_cant": "The failing setup function can be anywhere in an arbitrary list.", "anchors": ["openapi3/helper.go:SetupOperation", "openapi31/helper.go:SetupOperation"]}
{"id": "C12", "title": "Webhooks", "statement": "AddWebhook (3.1) fails for a name that is taken or for an unknown method, leaving the document as it was; otherwise the name maps to a path item with that one operation, all other webhooks and all paths stay.", "quantifier": "every document, method, name and operation", "why_tests_cant": "Frame property over all documents.", "anchors": ["openapi31/helper.go:AddWebhook"]}
{"id": "C13", "title": "Reflected parameters are unique", "statement": "Whatever request structures are given to Reflector.AddOperation, the parameter list of a stored operation never has two inline parameters with the same location and name.", "quantifier": "every operation context, any number of request structures, every outcome of reflection", "why_tests_cant": "The structures and their reflected properties are arbitrary.", "anchors": ["openapi3/reflect.go:parseParametersIn", "openapi31/reflect.go:parseParametersIn", "openapi3/helper.go:validatePathParams"]}
{"id": "C14", "title": "Reflected path parameters are required and declared", "statement": "Whenever Reflector.AddOperation succeeds, the parameter reflected from a path field is required, whatever the tags of the field say, and is a path parameter with a placeholder in the URL unless a tag moved it to another location; every path parameter of the stored operation has a placeholder, and every placeholder has a path parameter if all locations are standard.", "quantifier": "every operation context and every outcome of reflection", "why_tests_cant": "The structures are arbitrary.", "anchors": ["openapi3/reflect.go:parseParametersIn", "openapi31/reflect.go:parseParametersIn"]}
{"id": "C15", "title": "Same location and name in two structures: first wins, second must not collide", "statement": "Reflecting structures one after the other only appends parameters: the parameters that were already in the operation keep their position and value. A structure with a field whose parameter has the location and name of one that is there, or of another field, is refused with an error.", "quantifier": "every list of request structures", "why_tests_cant": "Needs all sequences of structures.", "anchors": ["openapi3/reflect.go:parseParametersIn", "openapi31/reflect.go:parseParametersIn"]}
{"id": "C16", "title": "No reflected body for GET, HEAD, DELETE, TRACE", "statement": "For methods GET, HEAD, DELETE and TRACE, in any letter case, a structure that does not enforce a request body never produces a JSON or form body; only a raw content type (of the unit, or in a contentType tag) still does. For every method, a successful reflection leaves a request body exactly if some unit wants one.", "quantifier": "every structure, every spelling of the method, every mapping", "why_tests_cant": "Ranges over all structures and spellings.", "anchors": ["internal/json_schema.go:ReflectRequestBody"]}
{"id": "C17", "title": "HEAD responses carry no content", "statement": "An operation added for HEAD has no content in any inline response reflected from response structures, unless a customise function adds it.", "quantifier": "every list of response structures and statuses, in OpenAPI 3.0 and 3.1", "why_tests_cant": "All lists of structures.", "anchors": ["openapi3/reflect.go:setupResponse", "openapi31/reflect.go:setupResponse"]}
{"id": "C18", "title": "Response keys", "statement": "A content unit with status 100-599 is stored under its three digits, 1-5 under a family such as 2XX, IsDefault under default, and status 0 under 200; a key that the OpenAPI document format accepts is produced exactly for these statuses, and different statuses never share a key (except 0 and 200).", "quantifier": "every integer status and every content unit", "why_tests_cant": "All integers.", "anchors": ["openapi3/reflect.go:setupResponse", "openapi31/reflect.go:setupResponse"]}
{"id": "C19", "title": "Content types are not lost", "statement": "Reflecting more request or response units keeps the content types that are already there (unless a customise function removes them), whether it succeeds or not; the media type of a content type that the unit does not produce is unchanged.", "quantifier": "every list of content units", "why_tests_cant": "All lists of units.", "anchors": ["openapi3/reflect.go:parseRawResponseBody", "openapi31/reflect.go:parseRawResponseBody", "openapi3/reflect.go:parseJSONResponse"]}
{"id": "C20", "title": "Component schemas are only added", "statement": "Reflecting an operation never removes a component schema. Parameters, headers and responses never change an existing component schema; only a request body can replace one, by its own definition of the same name.", "quantifier": "every sequence of reflected operations", "why_tests_cant": "Unbounded histories.", "anchors": ["openapi3/reflect.go:collectDefinition", "openapi31/reflect.go:collectDefinition", "openapi3/reflect.go:parseRequestBody"]}
{"id": "C21", "title": "A failing Reflector.AddOperation adds no operation", "statement": "When Reflector.AddOperation (or AddWebhook) does not succeed, whether by an error or a panic, the operations of the document are unchanged, and everything else but the component schemas. (For contexts that share nothing with the document; what sharing does is C89.)", "quantifier": "every operation context and every failing reflection", "why_tests_cant": "Failure can happen in any unit, at any property.", "anchors": ["openapi3/reflect.go:AddOperation", "openapi31/reflect.go:AddOperation"]}
{"id": "C22", "title": "Adding the same operation context twice fails", "statement": "A second Reflector.AddOperation with a context for a method and path that was added before does not succeed and leaves the first operation in place, also for paths with patterns; no new context is made for them. Whatever is added later, operations (and 3.1 webhooks) that are in the document stay as they are. (Taken as structs: the operation of a context that was added shares maps and pointers with the document, see C89.)", "quantifier": "every method, path and pair of contexts", "why_tests_cant": "All paths, all states in between.", "anchors": ["openapi3/reflect.go:AddOperation", "openapi3/reflect.go:NewOperationContext"]}
{"id": "C23", "title": "Descriptions", "statement": "The description of a response is the first non-empty one of: the description of the unit, the one that was there, that of the schema of the JSON body, that of the schema of the headers, the standard HTTP status text. The description of a unit is that of an inline request body. A customise function runs last and decides.", "quantifier": "every content unit and customise function", "why_tests_cant": "Arbitrary functions and units.", "anchors": ["openapi3/reflect.go:setupResponse", "openapi3/reflect.go:setupRequest"]}
{"id": "C24", "title": "File uploads force multipart", "statement": "A form structure for which a file is detected during reflection is stored under multipart/form-data and not under application/x-www-form-urlencoded, and the other way round without a file, whatever form content type was asked for; the other form content type is left as it was.", "quantifier": "every structure and content type", "why_tests_cant": "All structures.", "anchors": ["openapi3/reflect.go:parseRequestBody", "internal/json_schema.go:ReflectRequestBody"]}
{"id": "C25", "title": "Forbidding unknown parameters is observable", "statement": "UnknownParamIsForbidden(in), and UnknownParamsAreForbidden of the operation context, is true exactly when some reflected structure forbade additional properties for that location, or the operation said so before.", "quantifier": "every list of structures and every location", "why_tests_cant": "All structures.", "anchors": ["openapi3/helper.go:UnknownParamIsForbidden", "openapi3/reflect.go:parseParametersIn"]}
{"id": "C26", "title": "3.0 schema conversion round trip", "statement": "Converting an OpenAPI 3.0 schema to JSON Schema and back gives the same schema, for schemas that use only features both sides can carry (no exclusive bounds, no explicit false nullable, no discriminator, xml or external docs).", "quantifier": "every schema of any depth", "why_tests_cant": "Recursive structure of any depth.", "anchors": ["openapi3/jsonschema.go:FromJSONSchema", "openapi3/jsonschema.go:toJSONSchema"]}
{"id": "C27", "title": "Resolving references always terminates", "statement": "ToJSONSchema terminates for every document and schema, including self-referencing and mutually recursive component schemas.", "quantifier": "every document with component schemas and every schema", "why_tests_cant": "Termination over all reference graphs.", "anchors": ["openapi3/jsonschema.go:ToJSONSchema", "openapi31/jsonschema.go:findReferences"]}
{"id": "C28", "title": "Resolved schemas are self-contained", "statement": "Every local reference left in the result of ToJSONSchema (3.0) points to a schema included in the result, and the included schema is the conversion of the component of that name.", "quantifier": "every document, every schema, every reference occurrence at any depth", "why_tests_cant": "All reference graphs.", "anchors": ["openapi3/jsonschema.go:ToJSONSchema"]}
{"id": "C29", "title": "Result of ToJSONSchema does not depend on map order", "statement": "The converted schema, the set of included components and the decision to inline the root are the same for every iteration order of properties.", "quantifier": "every iteration order of every properties map", "why_tests_cant": "Go randomises iteration; the traversal is stateful.", "anchors": ["openapi3/jsonschema.go:toJSONSchema", "openapi31/jsonschema.go:findReferences"]}
{"id": "C30", "title": "Only needed components are included", "statement": "The components included in the result of ToJSONSchema are exactly the component names reachable from the schema through local references, minus the root if it was inlined.", "quantifier": "every document and schema", "why_tests_cant": "Reachability in arbitrary graphs.", "anchors": ["openapi3/jsonschema.go:ToJSONSchema", "openapi31/jsonschema.go:ToJSONSchema"]}
{"id": "C31", "title": "Exclusive bounds", "statement": "Converting an exclusive bound from JSON Schema keeps the bound. The code breaks this: the flag is set but the number is dropped.", "quantifier": "every schema with exclusiveMaximum or exclusiveMinimum", "why_tests_cant": "All numbers and combinations with inclusive bounds.", "anchors": ["openapi3/jsonschema.go:FromJSONSchema"]}
{"id": "C32", "title": "Boolean schemas", "statement": "The JSON Schemas true and false become the empty schema and the negated empty schema, which accept everything and nothing.", "quantifier": "every place where a boolean schema can occur", "why_tests_cant": "Any depth.", "anchors": ["openapi3/jsonschema.go:fromBool"]}
{"id": "C33", "title": "3.1 references are collected", "statement": "In 3.1 every local reference under not, allOf, anyOf, oneOf, items, properties and additionalProperties of the result is included; references under other keywords (patternProperties, if/then/else, contains, dependencies) are missed and dangle.", "quantifier": "every document and schema", "why_tests_cant": "All reference graphs.", "anchors": ["openapi31/jsonschema.go:findReferences"]}
{"id": "C34", "title": "Joining JSON objects", "statement": "Marshalling an entity with extension maps gives one well-formed JSON object whose members are the members of the parts in order, whatever the parts are, including empty and null parts. A single part that is not an object is the result; an object and a non-object cannot be joined; two non-objects only if they are the same one-character text.", "quantifier": "every list of JSON values", "why_tests_cant": "Comma placement for all lists of empty and non-empty parts.", "anchors": ["openapi3/entities.go:marshalUnion", "openapi31/entities.go:marshalUnion"]}
{"id": "C35", "title": "Documents survive marshalling", "statement": "Marshalling a well-formed document or entity of either version succeeds, unmarshalling the result succeeds, and gives the same entity: every field, map entry and list element is kept, at any depth, except that empty lists and maps become nil, fields of 3.0 parameters and HTTP schemes that only repeat other fields are filled in, and the unset style of a 3.0 header or cookie parameter may become its default.", "quantifier": "every well-formed value of every entity type, of any size and depth, and every way numbers are read and printed", "why_tests_cant": "Entities are recursive trees of any size.", "anchors": ["openapi3/entities.go:MarshalJSON", "openapi3/entities.go:UnmarshalJSON", "openapi3/entities.go:marshalUnion", "openapi31/entities.go:MarshalJSON", "openapi31/entities.go:UnmarshalJSON"]}
{"id": "C36", "title": "Unknown keys", "statement": "Decoding a 3.0 entity with a key that is neither one of its keys nor an extension, a path or a status where these are allowed fails; a 3.1 entity is read as if such a member (not even equal to a key up to case) were not there.", "quantifier": "every entity and every key", "why_tests_cant": "All key strings.", "anchors": ["openapi3/entities.go:UnmarshalJSON", "openapi31/entities.go:UnmarshalJSON"]}
{"id": "C37", "title": "Required keys", "statement": "Decoding an entity fails if one of its required keys is absent.", "quantifier": "every entity type and every JSON object", "why_tests_cant": "All JSON objects.", "anchors": ["openapi3/entities.go:requireKeysSpec", "openapi31/entities.go:requireKeysSpec"]}
{"id": "C38", "title": "Extensions survive", "statement": "Every x- member of an entity that keeps extensions is kept by decoding under its key with its value as encoding/json reads it, and encoding writes it.", "quantifier": "every JSON value under every key starting with x-", "why_tests_cant": "All keys and values.", "anchors": ["openapi3/entities.go:regexX", "openapi31/entities.go:regexX"]}
{"id": "C39", "title": "Reference or value, never both", "statement": "A value-or-reference entity decodes only if exactly one of its alternatives decodes, and the decoded alternative is the one that is set.", "quantifier": "every JSON value", "why_tests_cant": "All JSON values.", "anchors": ["openapi3/entities.go:SchemaOrRef.UnmarshalJSON", "openapi31/entities.go:PathItemOrReference.UnmarshalJSON"]}
{"id": "C40", "title": "YAML key order", "statement": "The ordered-map decoder reports the keys of a JSON object in document order, as often as they occur, and skips nested values of any depth.", "quantifier": "every JSON object", "why_tests_cant": "Nesting of any depth.", "anchors": ["openapi3/yaml.go:objectKeys", "openapi3/yaml.go:skipValue"]}
{"id": "C41", "title": "YAML maps become string maps", "statement": "Converting a YAML value leaves no map with non-string keys at any depth, keeps scalars and lists, and is the identity on values that already have string keys. If keys of a map are written differently, every entry is found under its written key whatever the order of visits; keys written alike (1 and \"1\") keep one of their values, depending on Go's map order.", "quantifier": "every YAML value of any depth", "why_tests_cant": "Any depth.", "anchors": ["openapi3/yaml.go:convertMapI2MapS"]}
{"id": "C42", "title": "Schema walkers", "statement": "WalkRequestJSONSchemas calls the callback once for every parameter in order, then for the JSON body or every field of the urlencoded form; WalkResponseJSONSchemas for every header, then for every schema of the content. Both stop at the first callback error and return it with a label, and call done exactly once, after the last callback, however the walk ends. Multipart forms are not walked, and walking a default response, or one that a customisation made a reference, panics.", "quantifier": "every content unit and every callback", "why_tests_cant": "Callbacks are arbitrary functions.", "anchors": ["openapi3/walk_schema.go", "openapi31/walk_schema.go"]}
{"id": "C43", "title": "Operation context setters and getters", "statement": "After any sequence of setter calls on an operation context the getters return the last values set; setters of one attribute do not change another; the deprecated flag reads false when unset.", "quantifier": "every sequence of setter calls", "why_tests_cant": "Unbounded sequences.", "anchors": ["openapi3/reflect.go:operationContext", "openapi31/reflect.go:operationContext"]}
{"id": "C44", "title": "Content units keep their order and options", "statement": "AddReqStructure and AddRespStructure append exactly one content unit each, apply the options in order, and never change earlier units; field mappings of a location are those set last.", "quantifier": "every sequence of calls and options", "why_tests_cant": "Unbounded sequences of arbitrary functions.", "anchors": ["internal/operation_context.go", "operation.go:ContentUnit"]}
{"id": "C45", "title": "Errors are joined, not lost", "statement": "Joining errors gives nil exactly when all are nil, and otherwise the message contains every message in order.", "quantifier": "every list of errors", "why_tests_cant": "All lists.", "anchors": ["openapi3/reflect.go:joinErrors", "openapi31/reflect.go:joinErrors"]}
{"id": "C46", "title": "Definition names are safe", "statement": "Names of component schemas made by the reflector contain only letters, digits, '.', '-' and '_', and names that were already safe are unchanged, so distinct safe names stay distinct.", "quantifier": "every generated definition name", "why_tests_cant": "All strings.", "anchors": ["internal/json_schema.go:sanitizeDefName"]}
{"id": "C47", "title": "Security schemes", "statement": "Setting a security scheme stores it under its name, replaces one of the same name and keeps all others; the last setting of a name wins over any history.", "quantifier": "every history of security setter calls", "why_tests_cant": "Unbounded histories.", "anchors": ["openapi3/helper.go:SetAPIKeySecurity", "openapi31/helper.go:SetAPIKeySecurity"]}
{"id": "C48", "title": "Conversion to JSON Schema keeps the accepted values", "statement": "A JSON value is accepted by the result of ToJSONSchema (3.0), with the components it includes, exactly if the OpenAPI schema accepts it in its document, for schemas in which nullable comes with a type. A nullable schema without type is the exception: it becomes a schema that accepts only null.", "quantifier": "every schema, document and JSON value, with any meaning of format, pattern and external references", "why_tests_cant": "All schemas, documents and values.", "anchors": ["openapi3/jsonschema.go:ToJSONSchema", "openapi3/jsonschema.go:checkNullable"]}
{"id": "C49", "title": "Conversion from JSON Schema keeps the accepted values", "statement": "FromJSONSchema gives an OpenAPI schema that accepts exactly the values the JSON Schema accepts, for JSON Schemas that OpenAPI 3.0 can express. Outside of that it loses constraints: type null accepts everything, of several types only the last is kept.", "quantifier": "every JSON Schema and JSON value", "why_tests_cant": "All schemas and values.", "anchors": ["openapi3/jsonschema.go:FromJSONSchema"]}
{"id": "C50", "title": "3.1 resolution keeps the accepted values", "statement": "The result of ToJSONSchema (3.1) with its included components accepts exactly the values that the schema accepts in its document, for schemas that use references only under the keywords of C33.", "quantifier": "every schema, document and JSON value", "why_tests_cant": "All schemas, documents and values.", "anchors": ["openapi31/jsonschema.go:ToJSONSchema", "openapi31/jsonschema.go:findReferences"]}
{"id": "C51", "title": "Annotations survive schema conversion", "statement": "Title, description, default, readOnly, writeOnly, deprecated, the first example and exactly the x- members survive FromJSONSchema at every node; ToJSONSchema keeps them too.", "quantifier": "every schema", "why_tests_cant": "All schemas.", "anchors": ["openapi3/jsonschema.go:FromJSONSchema", "openapi3/jsonschema.go:ToJSONSchema"]}
{"id": "C52", "title": "JSON request bodies", "statement": "After a successful reflection the media type application/json of the request body has the converted schema of the JSON body of the unit, and the definitions of the body are component schemas with their converted schemas.", "quantifier": "every list of request units and every outcome of reflection", "why_tests_cant": "All structures and lists of units.", "anchors": ["openapi3/reflect.go:parseRequestBody", "openapi31/reflect.go:parseRequestBody"]}
{"id": "C53", "title": "Reflected parameters, exactly", "statement": "After a successful reflection the parameters of the operation are those it had, followed by exactly one for each top-level field of the request structures, in the order query, path, cookie, header; name, location, description, schema or JSON content, style and explode are those the field and its collectionFormat ask for, then changed by tags.", "quantifier": "every list of request units and every outcome of reflection", "why_tests_cant": "All structures; order and completeness.", "anchors": ["openapi3/reflect.go:parseParametersIn", "openapi31/reflect.go:parseParametersIn"]}
{"id": "C54", "title": "Definitions are not lost", "statement": "After a successful reflection every definition that was reported in the course of it (parameters, nested JSON parameters, bodies, responses) is a component schema of the document, so that references to it can be followed.", "quantifier": "every operation context and every outcome of reflection", "why_tests_cant": "All structures.", "anchors": ["openapi3/reflect.go:collectDefinition", "openapi31/reflect.go:collectDefinition", "openapi3/reflect.go:parseRequestBody"]}
{"id": "C55", "title": "JSON responses", "statement": "A response unit with a JSON body is stored under its place and its content type (application/json if none was given, parameters such as charset cut off) with the converted schema; every content type that a unit names or tags is present.", "quantifier": "every list of response units and every outcome of reflection", "why_tests_cant": "All structures and lists of units.", "anchors": ["openapi3/reflect.go:parseJSONResponse", "openapi31/reflect.go:parseJSONResponse", "openapi3/reflect.go:setupResponse"]}
{"id": "C56", "title": "Response headers, exactly", "statement": "The headers of a stored response are exactly those of the top-level header fields of the structure, each with its converted schema and its tags; a unit without structure leaves the headers as they were.", "quantifier": "every response unit and every outcome of reflection", "why_tests_cant": "All structures.", "anchors": ["openapi3/reflect.go:parseResponseHeader", "openapi31/reflect.go:parseResponseHeader"]}
{"id": "C57", "title": "Reflector.AddOperation stores what was reflected", "statement": "A successful Reflector.AddOperation (or AddWebhook) stores, in the place of the context and nowhere else, an operation with exactly the reflected parameters, a request body exactly if a unit wants one, responses exactly in the places of the units (204 if there would be none), the marks of forbidden parameters, all reported definitions among the component schemas, and everything else as it was set in the context.", "quantifier": "every document, operation context and outcome of reflection", "why_tests_cant": "All structures and documents.", "anchors": ["openapi3/reflect.go:AddOperation", "openapi31/reflect.go:AddOperation", "openapi31/reflect.go:AddWebhook"]}
{"id": "C58", "title": "When adding an operation succeeds", "statement": "Reflector.AddOperation (and AddWebhook) on a context made by NewOperationContext succeeds if and only if there is no operation at that path and method (no webhook of that name) yet, the reflection of every body, parameter and header that the units ask for succeeds and its schema can be converted, and the parameters of the operation together with those of the fields are unique and agree with the placeholders of the path.", "quantifier": "every document, every context whose parameters have one of the four locations, every outcome of reflection that does not make a conversion panic", "why_tests_cant": "All structures, documents and histories; both directions.", "anchors": ["openapi3/reflect.go:AddOperation", "openapi3/reflect.go:setupRequest", "openapi3/reflect.go:setupResponse", "openapi31/reflect.go:AddOperation", "openapi31/reflect.go:AddWebhook"]}
{"id": "C59", "title": "No panic while adding operations", "statement": "Adding an operation or webhook returns, with or without an error. In 3.0 this holds as long as reflection yields no empty schema value (neither boolean nor object) and no header field has a plain reference as its schema, in 3.1 as long as the reported definitions can be turned into JSON; a 3.0 header with a reference does panic.", "quantifier": "every document, context and outcome of reflection", "why_tests_cant": "All structures; the offending ones are rare.", "anchors": ["openapi3/reflect.go:AddOperation", "openapi3/reflect.go:parseResponseHeader", "openapi3/jsonschema.go:FromJSONSchema", "openapi31/reflect.go:AddOperation", "openapi31/reflect.go:AddWebhook"]}
{"id": "C60", "title": "Nullable, deprecated and plain media types", "statement": "In 3.0 a parameter that is not a pointer, and a JSON response, is not nullable and is otherwise the converted schema; in 3.1 schemas are taken as they are. A response header is deprecated as the schema of its field is. A content type that is only named is a plain string, unless there is a media type already: 3.0 keeps that, 3.1 replaces it if it is named by a contentType tag.", "quantifier": "every list of units and every outcome of reflection", "why_tests_cant": "All structures and lists of units.", "anchors": ["openapi3/reflect.go:parseParametersIn", "openapi3/reflect.go:parseJSONResponse", "openapi3/reflect.go:parseResponseHeader", "openapi3/reflect.go:parseRawResponseBody", "openapi31/reflect.go:parseRawResponseBody"]}
{"id": "C61", "title": "References replace inline content", "statement": "A response unit made with WithReference is stored as that reference and without inline content; if the last request unit is a reference, a request body, if there is one, is that reference without inline content.", "quantifier": "every list of units and every outcome of reflection", "why_tests_cant": "All structures and lists of units.", "anchors": ["operation.go:WithReference", "openapi3/reflect.go:setupRequest", "openapi3/reflect.go:setupResponse"]}
{"id": "C62", "title": "The old 3.0 interface equals the new one", "statement": "SetRequest, SetJSONResponse, SetStringResponse and SetupRequest/SetupResponse of the 3.0 reflector do what the new interface does with one content unit having the given value, mappings, content type and status; translating an old context to a new one and back keeps everything but the operation.", "quantifier": "every old operation context and every outcome of reflection", "why_tests_cant": "All contexts.", "anchors": ["openapi3/reflect_deprecated.go", "openapi3/reflect.go:toOpCtx", "openapi3/reflect.go:fromOpCtx"]}
{"id": "C63", "title": "Walking adds definitions to the document", "statement": "Walking a request or response keeps every component schema of the document, except that a definition of a request body replaces one of the same name, and adds every definition that was reported.", "quantifier": "every document, content unit and outcome of reflection", "why_tests_cant": "All structures and documents.", "anchors": ["openapi3/walk_schema.go:WalkRequestJSONSchemas", "openapi31/walk_schema.go:WalkRequestJSONSchemas", "openapi3/walk_schema.go:WalkResponseJSONSchemas"]}
{"id": "C64", "title": "Walking does not panic", "statement": "Walking a content unit whose schemas can be converted (C59), that is not customised and, for responses, not the default, returns with or without an error: in 3.0 always, in 3.1 if the component schemas and the schemas of the unit can be decoded, to schema objects.", "quantifier": "every document, content unit, callback, iteration order and outcome of reflection", "why_tests_cant": "All structures, documents and callbacks.", "anchors": ["openapi3/walk_schema.go", "openapi31/walk_schema.go", "openapi3/jsonschema.go:ToJSONSchema", "openapi31/jsonschema.go:ToJSONSchema"]}
{"id": "C65", "title": "ResolveJSONSchemaRef", "statement": "A reference is found if and only if it is #/components/schemas/ followed by the name of a component schema of the document. In 3.0 the result is self-contained and accepts exactly the values that the component accepts; in 3.1 it is the component as it is, whose references point into the document.", "quantifier": "every document and every string", "why_tests_cant": "All documents, also with reference cycles.", "anchors": ["openapi3/reflect.go:ResolveJSONSchemaRef", "openapi31/reflect.go:ResolveJSONSchemaRef"]}
{"id": "C66", "title": "Names of walked headers", "statement": "The header name told to the callback equals the name in the document up to the case of ASCII letters, is unchanged by canonicalising again, and two valid names are told as the same name exactly if they are equal up to case.", "quantifier": "every two header names", "why_tests_cant": "All strings.", "anchors": ["openapi3/walk_schema.go:provideHeaderSchemas", "openapi31/walk_schema.go:provideHeaderSchemas"]}
{"id": "C67", "title": "No example objects in 3.1", "statement": "In 3.1 no JSON value can be read as an Example Object, so where an example or a reference is expected only references are read.", "quantifier": "every JSON value encoding/json can read", "why_tests_cant": "All JSON values.", "anchors": ["openapi31/entities.go:Example.UnmarshalJSON"]}
{"id": "C68", "title": "References to links, path items and responses in 3.1", "statement": "In 3.1 a reference to a link or a path item can be written but not read back; a reference to a response can be read back exactly if it has no description.", "quantifier": "every reference, summary and description", "why_tests_cant": "All strings.", "anchors": ["openapi31/entities.go:LinkOrReference.UnmarshalJSON", "openapi31/entities.go:PathItemOrReference.UnmarshalJSON", "openapi31/entities.go:ResponseOrReference.UnmarshalJSON"]}
{"id": "C69", "title": "Styles and empty schemas in 3.1", "statement": "In 3.1 no parameter with style simple, matrix or label can be read, whatever else it has; a header with an empty schema is written without schema and then not read back.", "quantifier": "every parameter object with such a style", "why_tests_cant": "All objects.", "anchors": ["openapi31/entities.go:ParameterStyle.UnmarshalJSON", "openapi31/entities.go:Header.MarshalJSON", "openapi31/entities.go:Header.UnmarshalJSON"]}
{"id": "C70", "title": "Members lost in reading", "statement": "Reading a 3.1 document loses the extensions of Components and Encoding Objects, the $ref of a path item and the server of a link; a 3.0 Encoding Object with an extension is rejected.", "quantifier": "every such object and value", "why_tests_cant": "All objects, keys and values.", "anchors": ["openapi31/entities.go:Components", "openapi31/entities.go:Encoding", "openapi31/entities.go:PathItem", "openapi31/entities.go:Link", "openapi3/entities.go:Encoding.UnmarshalJSON"]}
{"id": "C71", "title": "Component names", "statement": "Reading a 3.0 document loses, without an error, the components whose name has a character that is not a letter, digit, dot, hyphen or underscore.", "quantifier": "every component map, name and value", "why_tests_cant": "All names.", "anchors": ["openapi3/entities.go:ComponentsSchemas.UnmarshalJSON"]}
{"id": "C72", "title": "Maps that are not objects", "statement": "A value that is not an object, where the paths, a callback or (3.0) a map of components is expected, is read without an error like an empty object.", "quantifier": "every JSON value that is not an object", "why_tests_cant": "All values.", "anchors": ["openapi3/entities.go:Paths.UnmarshalJSON", "openapi31/entities.go:Paths.UnmarshalJSON", "openapi31/entities.go:Callbacks.UnmarshalJSON"]}
{"id": "C73", "title": "Documents that were read can be saved", "statement": "Reading a document, writing it and reading it again gives the same document (up to empty lists and maps and fields that are filled in), provided that no value of the document is one of the known exceptions: in 3.0 a parameter whose schema holds integers that float64 changes, or whose schema is null or content is empty; in 3.1 references to links, path items and described responses, examples, headers with neither a non-empty schema nor non-empty content.", "quantifier": "every JSON value and every type of both versions (except two helper types), every number behaviour where printing is stable", "why_tests_cant": "All documents that can be read; unit tests have a few sample documents.", "anchors": ["openapi3/entities.go:Spec.UnmarshalJSON", "openapi3/entities.go:Spec.MarshalJSON", "openapi31/entities.go:Spec.UnmarshalJSON", "openapi31/entities.go:Spec.MarshalJSON", "openapi3/entities.go:Parameter.UnmarshalJSON"]}
{"id": "C74", "title": "The order of members does not matter", "statement": "Reading a JSON value, with the members of its objects, at any depth, in any other order gives the same: either both readings fail, or both give the same value up to the order of map entries. This needs that no object has a key twice and that no object that is read as a struct has two spellings of the same field name (JSON names are read without regard to case): then, in 3.1, the last one is kept, so the order does matter. Keys of maps and of free-form values may differ in letter case only.", "quantifier": "every JSON value, every reordering of it at every depth, every type of both versions", "why_tests_cant": "All reorderings of all documents; unit tests compare a few documents.", "anchors": ["openapi3/entities.go:Spec.UnmarshalJSON", "openapi31/entities.go:Spec.UnmarshalJSON", "openapi31/entities.go:Contact.UnmarshalJSON"]}
{"id": "C75", "title": "No repeated keys in written documents", "statement": "What a well-formed document is written as has no object with the same key twice, nor, where an object is read as a struct, two spellings of the name of a field (JSON names are read without regard to case). In 3.0 this needs that the fields that repeat what others say (the location and the schema-or-content part of parameters) are not filled in. Reading a 3.0 parameter does fill them in, so every parameter that was read is written with the key `in` twice.", "quantifier": "every well-formed value of every type of both versions; every 3.0 parameter that can be read", "why_tests_cant": "All documents; a duplicate key is accepted by encoding/json, so tests that read the document back do not see it.", "anchors": ["openapi3/entities.go:Parameter.MarshalJSON", "openapi3/entities.go:Parameter.UnmarshalJSON", "openapi3/entities.go:marshalUnion", "openapi31/entities.go:marshalUnion"]}
{"id": "C76", "title": "Documents can be kept as YAML", "statement": "A well-formed document written as YAML and read again gives the same as writing and reading it as JSON, up to the order of map entries and whatever order Go visits maps in, provided that the YAML library reads back what it wrote, and that the numbers of the document survive float64. In 3.0 the document must not have been read from JSON, or at least must be written without a key that occurs twice or in two spellings (C75). An integer that is not a float64, such as 2^53+1, is changed by YAML and not by JSON.", "quantifier": "every well-formed document of both versions, every YAML library behaviour that is faithful, every map order", "why_tests_cant": "All documents and all iteration orders; unit tests have a few sample documents.", "anchors": ["openapi3/yaml.go:Spec.MarshalYAML", "openapi3/yaml.go:Spec.UnmarshalYAML", "openapi31/yaml.go:Spec.MarshalYAML", "openapi31/yaml.go:Spec.UnmarshalYAML"]}
{"id": "C77", "title": "Written 3.0 documents follow the published schema", "statement": "A well-formed OpenAPI 3.0 document that was built (not read) and in which nothing that is written is a nil pointer, slice or map is written as JSON that the published JSON Schema of OpenAPI 3.0 (resources/schema/openapi3.json) accepts, apart from the keywords that constrain the texts, numbers and counts the author chose.", "quantifier": "every well-formed 3.0 document, every number behaviour", "why_tests_cant": "All documents; unit tests validate a few generated documents against the schema, if at all.", "anchors": ["resources/schema/openapi3.json", "openapi3/entities.go:Spec.MarshalJSON"]}
{"id": "C78", "title": "Every valid 3.0 document is read", "statement": "Every JSON value that the published JSON Schema of OpenAPI 3.0 accepts is read without an error, if its numbers are representable and the keys of discriminators are not written in another letter case.", "quantifier": "every JSON value", "why_tests_cant": "All valid documents: every combination of every object of the specification at every depth.", "anchors": ["resources/schema/openapi3.json", "openapi3/entities.go:Spec.UnmarshalJSON"]}
{"id": "C79", "title": "Only valid 3.0 documents are read", "statement": "Every JSON value that is read as a 3.0 document is accepted by the published JSON Schema (up to the keywords on texts, numbers and counts), provided the document has no repeated keys, no null except as arbitrary JSON, objects where the paths, callbacks and maps of components are expected, and no empty required or enum lists. Without these conditions invalid documents are read: paths that are a string, a contact that is null.", "quantifier": "every JSON value", "why_tests_cant": "All invalid documents have to be rejected; tests try a few.", "anchors": ["resources/schema/openapi3.json", "openapi3/entities.go:Spec.UnmarshalJSON"]}
{"id": "C80", "title": "General information of a document", "statement": "After any history of calls on a document, failed ones included, Title, Description and Version return what was set last, or what they returned before; setting them changes no path, webhook, component schema or security scheme; the version of OpenAPI stays, 3.0.3 or 3.1.0 in a new document.", "quantifier": "every document of both versions, every sequence of calls of the document's methods", "why_tests_cant": "All histories of calls.", "anchors": ["spec.go:SpecSchema", "openapi3/helper.go:Spec.Title", "openapi3/helper.go:Spec.SetTitle", "openapi31/helper.go:Spec.SetDescription", "openapi31/helper.go:Spec.SetVersion"]}
{"id": "C81", "title": "Errors say what failed", "statement": "An error of Reflector.AddOperation or AddWebhook in reflecting the operation starts with the failing step, the method and the path, and ends with the cause. A second parameter of the same name and location is reported by name and location. An operation that is there already is reported by method and path.", "quantifier": "every context, every reflected value, every document of both versions", "why_tests_cant": "All failing inputs; unit tests check a few messages.", "anchors": ["openapi3/reflect.go:Reflector.AddOperation", "openapi31/reflect.go:Reflector.setupOC", "openapi3/reflect.go:Reflector.parseParametersIn", "openapi3/helper.go:Spec.AddOperation", "openapi31/helper.go:Spec.AddOperation"]}
{"id": "C82", "title": "Which valid 3.1 documents are read", "statement": "A JSON value that the published JSON Schema of OpenAPI 3.1 accepts, whose keys are not repeated and whose numbers can be represented, is read as a 3.1 document exactly if no schema in it is true or false, every example is a reference, no link and no path item among the components is a reference, no reference to a response has a description, and no parameter has the style simple, matrix or label. Each of these exceptions is real: there is a valid document that uses only it and that is not read.", "quantifier": "every JSON value", "why_tests_cant": "All valid documents have to be read; tests try a few.", "anchors": ["resources/schema/openapi31.json", "openapi31/entities.go:Spec.UnmarshalJSON"]}
{"id": "C83", "title": "Reflected 3.0 documents are valid", "statement": "A 3.0 document that is built by any sequence of the reflector's and document's calls can be written, and what is written is accepted by the published JSON Schema of OpenAPI 3.0 and reads as the same document, provided the input is in order: field schemas use the types of OpenAPI, no path parameter is an object or has a collection format, statuses are 1 to 5 or 100 to 599, paths begin with a slash, names of components have no special characters, and customisations keep to the format. Without these conditions calls succeed all the same, and the document is rejected, cannot be written or loses parts.", "quantifier": "every sequence of calls (failing ones included), every operation context, every report of the schema library about the structures, every operation and setup function", "why_tests_cant": "Documents grow by arbitrary sequences of calls over arbitrary Go structures; tests validate the documents of a few examples.", "anchors": ["openapi3/reflect.go:Reflector.AddOperation", "openapi3/helper.go:Spec.AddOperation", "openapi3/helper.go:Spec.SetupOperation", "openapi3/entities.go:Spec.MarshalJSON", "resources/schema/openapi3.json"]}
{"id": "C84", "title": "Reflected 3.1 documents are valid", "statement": "A 3.1 document that is built by any sequence of the reflector's and document's calls, webhooks included, can be written and reads as the same document, and what is written is accepted by the published JSON Schema of OpenAPI 3.1 exactly if the document has paths, webhooks or components, provided the input is in order: schemas of parameters and headers are not empty, no path parameter is an object or has a collection format, statuses are 1 to 5 or 100 to 599, paths begin with a slash, names of components have no special characters, and customisations keep to the format. Without these conditions calls succeed all the same, and the document is rejected or cannot be written: for example a parameter or response header of type interface{} loses its schema.", "quantifier": "every sequence of calls (failing ones included), every operation context and webhook, every report of the schema library about the structures, every operation and setup function", "why_tests_cant": "Documents grow by arbitrary sequences of calls over arbitrary Go structures; tests validate the documents of a few examples.", "anchors": ["openapi31/reflect.go:Reflector.AddOperation", "openapi31/reflect.go:Reflector.AddWebhook", "openapi31/helper.go:Spec.AddOperation", "openapi31/helper.go:Spec.AddWebhook", "openapi31/helper.go:Spec.SetupOperation", "openapi31/entities.go:Spec.MarshalJSON", "resources/schema/openapi31.json"]}
{"id": "C85", "title": "The JSON of a document says what the document says", "statement": "A 3.0 or 3.1 document that is in order, in particular one that is built by any sequence of calls with input that is in order, is written as a JSON object that has a member for every part of the document, under the name that OpenAPI gives it and with the value that was set, at every depth: information, paths, webhooks, operations, parameters, bodies, responses, headers, schemas, security. There are no other members, except that headers say they have the style simple, and nothing is left out but empty lists and maps.", "quantifier": "every document that is in order, every sequence of calls (failing ones included), every schema of 3.0, every map of 3.1", "why_tests_cant": "Documents are arbitrarily large; tests compare the JSON of a few.", "anchors": ["openapi3/entities.go:Spec.MarshalJSON", "openapi31/entities.go:Spec.MarshalJSON", "openapi3/entities.go:Schema.MarshalJSON", "openapi3/entities.go:marshalUnion", "openapi31/entities.go:marshalUnion"]}
{"id": "C86", "title": "Callbacks are told what is being worked on", "statement": "While AddOperation or AddWebhook works on an operation, callbacks of the schema library can ask OperationCtx for the operation and are told the direction (request or response) and location (body, query, path, cookie, header) that is being worked on, never those of an earlier call, although all calls share one mutable context. Requests come before responses and only structures of the operation are visited; the type of a field is visited on its own only where top-level fields become parameters. If the operation is accepted, nothing was left out: the parameters of every location, their types where there are any, and the bodies of every request structure, and the headers and body of every response structure were visited. Only two auxiliary visits (one to find out a default, one to find out whether a response has a body) tell nothing.", "quantifier": "every operation context, every report of the schema library, every earlier state of the context, accepted and failing operations", "why_tests_cant": "The context is shared and mutated by nested calls; tests check single callbacks of single operations.", "anchors": ["operation.go:WithOperationCtx", "operation.go:OperationCtx", "openapi3/reflect_deprecated.go:OperationCtx", "internal/json_schema.go:ReflectParametersIn", "internal/json_schema.go:ReflectResponseHeader", "internal/json_schema.go:ReflectRequestBody", "openapi3/reflect.go:Reflector.parseJSONResponse"]}
{"id": "C87", "title": "Builder methods do what their names say", "statement": "Every field of every entity of both versions has a method WithF that sets it, every map field also WithFItem(key, val), every pointer to a struct also FEns(), with the argument types of the field, and there are no other builder methods. A call changes the field it is named after and no other: WithF makes it the given value, WithFItem sets one entry and keeps the others (also if the map was nil), FEns replaces only nil, by an empty value. After any sequence of calls a field holds what the last WithF was given, an entry what the last WithFItem for its key was given, and the order of calls for different fields does not matter. Calls on what a chain of FEns() methods returns edit the document in that place and nowhere else. In the JSON of the entity a call replaces the members of its field and leaves all others as they were. PathItem.WithOperation sets the operation of the lower-cased method.", "quantifier": "all entity types of both versions, all their builder methods, all values of the types, all sequences of calls and chains of FEns of any length", "why_tests_cant": "there are about 700 generated methods and call sequences are unbounded; a test exercises a few methods in a few orders", "anchors": ["openapi3/entities.go: all methods With... and ...Ens", "openapi31/entities.go: all methods With... and ...Ens", "openapi3/helper.go: PathItem.WithOperation"]}
{"id": "C88", "title": "What storing an operation shares with the caller (3.0)", "statement": "Spec.SetupOperation gives the functions a copy of the stored operation struct, which shares its maps, slices and pointers. After an error the document still has the same paths, methods and operation structs, whatever the functions did with what they can reach; only objects reachable from that operation or captured by the functions can have changed, and everything separate from these reads the same to any depth. So the document is unchanged if the operation was new, or if the functions only assign fields; but a function that writes into a map of the operation and then fails has changed the document. When the functions succeed, the call succeeds exactly if the parameters that are then reached from the operation by its Parameters fit the path: none twice, and those in the path are the placeholders (for parameters in one of the four locations). After success the stored struct is the one the functions left, reads as they left it, and every other path, method, operation struct and field is as before. AddOperation changes nothing for a path and method that are taken; otherwise, besides the document's own maps, it changes at most one object: an empty map of responses it was given gets the response 204, even if the call fails. No sequence of calls makes operations or the caller's objects lead back to the document's own maps, or two paths share one.", "quantifier": "all memory contents (any sharing between operations and with the caller), methods, paths, lists of setup functions that use only what they are given or have captured, operations, all sequences of calls", "why_tests_cant": "tests compare a few documents after a few calls; which objects are shared cannot be seen from one outcome, and the claim ranges over every heap shape and every setup function", "anchors": ["openapi3/helper.go:SetupOperation", "openapi3/helper.go:AddOperation", "openapi3/entities.go:WithMapOfOperationValuesItem", "openapi3/entities.go:WithMapOfPathItemValuesItem", "openapi3/entities.go:WithMapOfResponseOrRefValuesItem"]}
{"id": "C89", "title": "What operation contexts share with the document (3.0)", "statement": "Reflector.AddOperation stores the struct of the context's operation, so the stored operation shares everything this refers to with the context. When it does not succeed, the document has the same paths, methods and operation structs, and whatever shares nothing with the context or the objects the reflection uses reads the same to every depth. Additions with new contexts, successful or not, leave every operation that is in the document in place, reading the same if it shares nothing with what the reflections use. A second call with the same context fails, but if a response was added to the context in between, the operation in the document has that response too.", "quantifier": "all memory contents, reflections that use only the operation and given objects, methods and paths, all sequences of additions", "why_tests_cant": "the claim ranges over every heap shape, every reflection and every sequence of additions; one outcome does not show what is shared", "anchors": ["openapi3/reflect.go:AddOperation", "openapi3/reflect.go:NewOperationContext", "openapi3/helper.go:AddOperation"]}
{"id": "C90", "title": "What storing an operation shares with the caller (3.1)", "statement": "In 3.1 a path item points to its operations, so Spec.SetupOperation gives the functions the stored operation itself: whatever they assign is in the document at once and stays there if the call fails. A new operation is stored only on success. When the functions succeed, the call succeeds exactly if the parameters that are then reached from the operation fit the path, as in C88. After an error the document has the same path items and webhooks (pointers included), every field of the Spec except Paths is as before, and only objects reachable from that operation or captured by the functions can have changed. After success the path item points to the operation the functions were given, which reads as they left it, and all other methods, paths and webhooks are as before. AddOperation for a path and method that are taken, and AddWebhook for a name that is taken, change nothing. Otherwise AddOperation stores a copy of the operation struct that shares everything it refers to, with the Responses pointer the caller has: if these responses have no response, they get a response 204 in place, even if the call fails. Written with a pattern in a path parameter, a path that exists is not noticed as taken: the stored operation is overwritten, also if the call then fails. AddWebhook stores a new path item with a new operation, sharing in the same way. No sequence of calls makes operations, webhooks or the caller's objects lead back to the document's own objects.", "quantifier": "all memory contents (any sharing between operations, webhooks and with the caller), methods, paths, names, lists of setup functions that use only what they are given or have captured, operations, all sequences of calls", "why_tests_cant": "which objects are shared cannot be seen from one outcome, and the claim ranges over every heap shape, every setup function and every history", "anchors": ["openapi31/helper.go:SetupOperation", "openapi31/helper.go:AddOperation", "openapi31/helper.go:AddWebhook", "openapi31/entities.go:PathsEns", "openapi31/entities.go:ResponsesEns", "openapi31/entities.go:WithMapOfPathItemValuesItem"]}
{"id": "C91", "title": "What operation contexts share with the document (3.1)", "statement": "Reflector.AddOperation and Reflector.AddWebhook of 3.1 store a new operation with the struct of the context's operation, so it shares everything this refers to with the context. When they do not succeed, the document has the same path items and webhooks, and only what the context and the objects of the reflection lead to (and Paths, which can become non-nil) can have changed. Additions with new contexts, successful or not, leave every operation and every webhook that is in the document in place, reading the same if it shares nothing with what the reflections use. A second AddOperation with the same context fails, but if a response was added to the context in between, the operation in the document has that response too.", "quantifier": "all memory contents, reflections that use only the operation and given objects, methods, paths and names, all sequences of additions of operations and webhooks", "why_tests_cant": "the claim ranges over every heap shape, every reflection and every sequence of additions; one outcome does not show what is shared", "anchors": ["openapi31/reflect.go:AddOperation", "openapi31/reflect.go:AddWebhook", "openapi31/reflect.go:NewOperationContext", "openapi31/helper.go:AddOperation", "openapi31/helper.go:AddWebhook"]}
{"id": "C92", "title": "Unset optional members are not written", "statement": "An entity of either version is written with a member for every field that is set and for every key that OpenAPI requires, even if that is empty, with what the value of the field is written as. A field that is unset (a nil pointer, an empty or nil list or map) and not required gives no member, not even null, unless extensions or repeating fields of the value have that key.", "quantifier": "all entities of both versions, all their fields, all values of the fields", "why_tests_cant": "there are hundreds of fields and a value can have any combination of them; tests set a few", "anchors": ["openapi3/entities.go: struct tags and MarshalJSON methods", "openapi31/entities.go: struct tags and MarshalJSON methods"]}
{"id": "C93", "title": "Explicit nulls are kept where any value is allowed", "statement": "A null given for a member that may hold any value (example of parameters, headers and media types, default and example of 3.0 schemas, value of examples, requestBody of links) is read as a pointer to nil, different from an absent member, and is written as null again. A null given for any other member that is not required is read as if the member were absent.", "quantifier": "all entities of both versions, all objects that are read as one, with any other members", "why_tests_cant": "tests read a few documents; the claim ranges over every entity, every member and every object around it", "anchors": ["openapi3/entities.go: UnmarshalJSON methods", "openapi31/entities.go: UnmarshalJSON methods"]}
{"id": "C94", "title": "Documents survive as text", "statement": "Marshalling an entity of either version to JSON returns, for every value, either an error or the compact JSON text of the entity; it never panics and never returns text that is not JSON. The error occurs exactly if the entity has no JSON value (C35, C37) or if it is nested more than 10000 levels deep. Unmarshalling the returned text gives the same value back, with the exceptions of C35.", "quantifier": "all entities of both versions and all their values, with strings of any characters", "why_tests_cant": "texts are joined from the texts of parts by cutting and appending characters; tests see a few of the texts", "anchors": ["openapi3/entities.go: MarshalJSON and UnmarshalJSON methods, marshalUnion", "openapi31/entities.go: MarshalJSON and UnmarshalJSON methods, marshalUnion"]}
{"id": "C95", "title": "The layout of a document does not matter", "statement": "Unmarshalling a text succeeds only if it is a JSON text, and what it gives depends only on the JSON value that the text denotes: white space, escapes, the case of hexadecimal digits and the indentation make no difference. A text denotes at most one value.", "quantifier": "all texts, all entities of both versions", "why_tests_cant": "one value has infinitely many texts", "anchors": ["openapi3/entities.go: UnmarshalJSON methods", "openapi31/entities.go: UnmarshalJSON methods"]}
{"id": "C96", "title": "YAML is written and read by way of JSON texts without loss", "statement": "MarshalYAML writes the JSON text of the document, reads the order of its top-level keys from that text token by token, and hands keys and values to the YAML library; UnmarshalYAML writes the JSON text of the YAML value and reads the document from it. On every JSON text, whatever its white space and escapes, the tokens are those of the value it denotes, the keys are found in the order of the text and as often as they occur, nested keys and brackets inside strings are not mistaken for keys, and a text that is not an object is an error. So a document that can be written as JSON and read again can be written as YAML and read again with the same content, and neither direction panics.", "quantifier": "all JSON texts of all values, with any layout; all documents, YAML libraries that read what they write, map iteration orders and ways to print keys", "why_tests_cant": "The token reader is a state machine over arbitrary texts: layouts, nesting, strings that look like structure and repeated keys are unbounded, and tests try a few documents.", "anchors": ["openapi3/yaml.go:13-132", "openapi31/yaml.go:13-132", "Spec.MarshalYAML", "Spec.UnmarshalYAML", "orderedMap.UnmarshalJSON", "objectKeys", "skipValue"]}
{"id": "C97", "title": "Reflectors do not interfere and keep their document", "statement": "A program may use any number of reflectors of a version in turn. If it uses operation contexts and document pointers only with the reflector they come from, and gives no map or pointer of its own to two of them, then each reflector behaves as if it were alone: its document and the results of all calls about it depend only on the steps about it. SpecEns and SpecSchema return the same pointer every time, so edits through any of these pointers are seen by the reflector and by all others; no step changes a document other than the one it is about or that the context it changes was added to, also if programs assign Spec. A zero Reflector does what NewReflector gives: all later calls return the same, and the documents are the same up to a missing one. Documents say the version of their package until the program changes it.", "quantifier": "all programs of any length over any number of reflectors, pointers and contexts, all edits, all reports of the dependencies", "why_tests_cant": "interleavings of reflectors and pointers are unbounded, and a shared or re-created document shows only in some of them", "anchors": ["openapi3/reflect.go: Reflector, NewReflector, SpecEns, SpecSchema, NewOperationContext, AddOperation, ResolveJSONSchemaRef", "openapi31/reflect.go: Reflector, NewReflector, SpecEns, SpecSchema, NewOperationContext, AddOperation, AddWebhook, ResolveJSONSchemaRef"]}
{"id": "C98", "title": "Texts of reflected documents are valid and are read back", "statement": "A document built by any sequence of calls with input in order is written by json.Marshal as a text, unless it nests more than 10000 levels deep, when it is an error. The text is a JSON text (RFC 8259) of what the document says and of nothing else, the published schema of its OpenAPI version accepts that JSON (in 3.1: unless the document has no paths, webhooks and components), and unmarshalling the text gives the same document. Through MarshalYAML and UnmarshalYAML the same document is read back up to the order of map entries, if yaml.v2 reads what it wrote.", "quantifier": "every history of calls with input in order, both versions, every order of map iteration in the YAML helpers", "why_tests_cant": "All histories, all texts, all nestings.", "anchors": ["openapi3/entities.go:Spec.MarshalJSON", "openapi31/entities.go:Spec.MarshalJSON", "openapi3/yaml.go:MarshalYAML", "openapi31/yaml.go:UnmarshalYAML", "openapi3/reflect.go:AddOperation", "openapi31/reflect.go:AddOperation"]}
{"id": "C99", "title": "Saving what was loaded gives the same file", "statement": "In 3.1, unmarshalling the text that was marshalled for an entity and marshalling the result gives the same text to the byte: for entities that can be written and read back, for whatever was loaded from a file of someone else (with the exceptions of C73), and for documents built by any sequence of calls. In 3.0 the same holds once the fields that repeat others (Location and SchemaXORContent of parameters, Bearer and NonBearer of HTTP security schemes) are filled in and header and cookie parameters have a style. Reading fills them in, so saving settles: whatever was loaded from a file of someone else and is saved, loaded and saved again is then saved as it was to the byte any number of times more, and so is a document built by any sequence of calls after one more round, if its numbers are printed as float64 are.", "quantifier": "every entity, every file that is loaded, every history of calls, both versions", "why_tests_cant": "All documents; a file that is loaded and saved again must not change each time.", "anchors": ["openapi3/entities.go:Parameter.MarshalJSON", "openapi3/entities.go:Parameter.UnmarshalJSON", "openapi3/entities.go:HTTPSecurityScheme.MarshalJSON", "openapi31/entities.go:Spec.MarshalJSON", "openapi31/entities.go:Spec.UnmarshalJSON"]}
{"id": "C100", "title": "The order of map entries does not show in the output", "statement": "Two entities that differ only in the order in which the entries of their maps are iterated, at any depth and also inside free-form values, are marshalled as the same text, to the byte; the text is the one with the keys of every map in ascending order, its JSON is that of the entity up to the order of members, and it is read as the same entity up to the order of entries. Marshalling what was read gives the same text: in 3.1 at once, for entities that can be written and read back, loaded files and built documents; in 3.0 from the second saving of what was read on, for entities that can be written and read back, built documents, and loaded files with one spelling of the name of each field.", "quantifier": "every entity, every iteration order of every map, both versions", "why_tests_cant": "Go iterates maps in a random order, so a test sees a few orders of a few documents; files under version control must not change from run to run.", "anchors": ["openapi3/entities.go:marshalUnion", "openapi31/entities.go:marshalUnion", "openapi3/entities.go:Paths.MarshalJSON", "openapi31/entities.go:Paths.MarshalJSON", "openapi3/entities.go:Spec.MarshalJSON", "openapi31/entities.go:Spec.MarshalJSON"]}
{"id": "C101", "title": "Which field a member is read into", "statement": "When an object is read as an entity, a member belongs to the field with exactly its name, and otherwise to the first field whose name is the same up to the case of the letters a-z, where also the long s (U+017F) counts as s and the Kelvin sign (U+212A) as k. When reading succeeds, every field holds what its members say, read one over the other in the order of the object, and is unset if it has none; only an untyped field may keep an explicit null instead. Of several members for a text, a truth value or a number the last that is not null wins, for an optional or untyped one the last; objects are merged. In 3.1 a second spelling of a name is therefore read, in 3.0 it is an error (C36).", "quantifier": "every member name, every list of fields, every object, both versions", "why_tests_cant": "Member names are arbitrary strings; encoding/json compares them without case, which the code does not mention.", "anchors": ["openapi3/entities.go:Info.UnmarshalJSON", "openapi31/entities.go:Info.UnmarshalJSON", "openapi31/entities.go:Spec.UnmarshalJSON"]}
{"id": "C102", "title": "Reading into a document that has content", "statement": "UnmarshalJSON of an entity that has content already: whether it succeeds does not depend on the content (in 3.1 unless an HTTP security scheme is given as null). Fields that are not in the JSON keep their values and the others are read over them; entries of maps of extra keys (paths, responses, extensions) are replaced by new ones if they are given and stay otherwise, so that two files with different paths add up; of the alternatives of a union only the one that fits stays. Reading into a new value and reading again into the result gives the same result, if members for the same field agree, and for every written document.", "quantifier": "every type of entity, every content before, every JSON value, both versions", "why_tests_cant": "The result depends on the combination of old content and input, of which there are arbitrarily many.", "anchors": ["openapi3/entities.go:Spec.UnmarshalJSON", "openapi3/entities.go:Paths.UnmarshalJSON", "openapi31/entities.go:Spec.UnmarshalJSON", "openapi31/entities.go:Paths.UnmarshalJSON", "openapi31/entities.go:SecuritySchemeHTTP.UnmarshalJSON"]}
{"id": "C103", "title": "Converting into a 3.0 schema that has content", "statement": "SchemaOrRef.FromJSONSchema on a value that has content: the result is the conversion into a new value laid over the content. Title, description, required, default, enum, deprecated, format, the upper limits of sizes, multipleOf, pattern, readOnly, writeOnly and uniqueItems are taken over even if they are missing in the JSON Schema; type, nullable, example, bounds and whether they are exclusive, lower limits of sizes, not, items, allOf, oneOf, anyOf, properties, additionalProperties and single extensions only if they are given; discriminator, externalDocs and xml stay. A boolean leaves the content and false adds a not. A reference is set next to the content; while there is one, nothing else that is converted shows. Converting the same JSON Schema again changes nothing, and whether the conversion panics does not depend on the content.", "quantifier": "every content of the receiver, every JSON Schema", "why_tests_cant": "The result depends on the combination of the content and of the keywords of the JSON Schema.", "anchors": ["openapi3/jsonschema.go:SchemaOrRef.FromJSONSchema", "openapi3/jsonschema.go:fromSchemaArray", "openapi3/jsonschema.go:checkNullable", "openapi3/jsonschema.go:SchemaOrRef.fromBool"]}
{"id": "C104", "title": "Names of the definitions of a form", "statement": "In a form, the definition of a type that has fields tagged formData or form is named FormData followed by the name the type has in a JSON body; every other type has the same name in both. So a type used in a form and in a JSON body has two components, forms distinguish types as well as JSON bodies do, reflecting a form made of such types changes no component whose name does not begin with FormData, and a JSON body changes none that does unless one of its types is itself named so; that is the only way a form type and another type share a component.", "quantifier": "every type, default name, set of tags, document and structure", "why_tests_cant": "All names and combinations of types in one document.", "anchors": ["internal/json_schema.go:ReflectRequestBody"]}
{"id": "C105", "title": "Schemas of files", "statement": "During the reflection of a request body, a single file (multipart.File or *multipart.FileHeader) becomes a schema that allows strings and not null, with format binary and, in 3.1, contentMediaType application/octet-stream, whatever the schema was before; nothing else in it changes and the value is not looked into further. A slice of files loses null and nothing else. Every other value is left alone. The body counts as one with files exactly when a file is among the visited values. In a 3.0 document a file is a string of format binary that is not nullable.", "quantifier": "every schema handed to the callbacks, every sequence of visited values", "why_tests_cant": "The schema the callbacks are given is arbitrary, and so is the sequence of values.", "anchors": ["internal/json_schema.go:ReflectRequestBody"]}
{"id": "C106", "title": "Built 3.0 documents and the rest of the meta-schema", "statement": "The JSON of a 3.0 document that was built by calls of the library with input that is in order also satisfies what C77 leaves out of the meta-schema for operations: openapi is a version of 3.0, every operation has at least one response, no two parameters of an operation that are not references have the same name and place, the content of a parameter has exactly one media type and stands without style, explode, allowReserved, example and examples, headers have a schema and no content, and nothing has both an example and examples. Limits: SetupOperation stores operations without responses, and references to the same parameter can be repeated.", "quantifier": "every sequence of calls with input that is in order", "why_tests_cant": "All histories of a document and all operations in it.", "anchors": ["openapi3/reflect.go:Reflector.AddOperation", "openapi3/helper.go:Spec.AddOperation", "openapi3/helper.go:Spec.SetupOperation", "resources/schema/openapi3.json"]}
{"id": "C107", "title": "References of reflected documents can be followed", "statement": "In a document that was built from the empty one by successful AddOperation and AddWebhook calls, where each reflection reports the definitions that its schemas refer to, and by other calls with operations that refer only to components that are there, every reference to a component schema, at any depth of any schema in a parameter, body, response, header or component, names a component that the document has. So does every reference that ToJSONSchema meets on its way from such a schema through the components: in 3.0 it never puts the empty schema in the place of a missing one, and in 3.1 it returns. Limit: a call that fails may leave a component behind whose reference cannot be followed.", "quantifier": "every history of successful calls, every schema in the document, every reference at any depth", "why_tests_cant": "Definitions are stored by callbacks during reflection of parameters, bodies and responses, in both versions; one path that drops a definition leaves a dangling reference.", "anchors": ["openapi3/reflect.go:Reflector.AddOperation", "openapi31/reflect.go:Reflector.AddOperation", "openapi31/reflect.go:Reflector.AddWebhook", "openapi3/reflect.go:Reflector.collectDefinition", "openapi31/reflect.go:Reflector.collectDefinition", "openapi3/jsonschema.go:SchemaOrRef.FromJSONSchema"]}
{"id": "C108", "title": "Reading files into a document that has content", "statement": "UnmarshalJSON and UnmarshalYAML of a document that has content already, on texts. The layout of a JSON text makes no difference, a text that is not JSON and YAML that does not stand for JSON are refused whatever the document holds, and YAML is read like the JSON it stands for. Whether a file is accepted does not depend on the content (in 3.1 unless an HTTP security scheme is given as null). Paths that the file does not have keep their path items, those it has get new ones. A file that was written for a document, as JSON or as YAML, can be read into a new document, which is then the same (for YAML up to the order of map entries), and reading the file again into the result changes nothing.", "quantifier": "every text, every content before, every YAML library that keeps what it writes, every order of maps, both versions", "why_tests_cant": "The result depends on the combination of old content, text and iteration order, of which there are arbitrarily many.", "anchors": ["openapi3/yaml.go:Spec.UnmarshalYAML", "openapi31/yaml.go:Spec.UnmarshalYAML", "openapi3/entities.go:Spec.UnmarshalJSON", "openapi31/entities.go:Spec.UnmarshalJSON"]}
