{"id": "C01", "title": "Single-byte bit access is a faithful bit map", "statement": "After ByteHandler::SetBit(b,p,v) with p<8, GetBit(b,p) is v and every other bit of b is unchanged; with p>=8 both calls throw std::invalid_argument and b is unchanged. Neither call ever has undefined behaviour.", "quantifier": "every byte, every position 0..255, every value", "why_tests_cant": "256*256*2 combinations are rarely enumerated, and the 'other bits unchanged' frame condition is never asserted by the tests", "anchors": ["src/Common/Impl/ByteHandler/ByteHandler.cpp:ByteHandler::SetBit(Byte&)", "src/Common/Impl/ByteHandler/ByteHandler.cpp:ByteHandler::GetBit(Byte)"]}
{"id": "C02", "title": "Array bit access: exactly when it is defined and what it does", "statement": "A user expects SetBit(arr,n,p,v);GetBit(arr,n,p)==v for every p<8n. The code does not deliver it: for every array of n>=8 bytes and position p<8n, p=0 divides by zero, 1<=p<=8 accesses outside the array, and for p>8 SetBit leaves the array unchanged and GetBit returns false; a null array, n<8 or p>=8n throws std::invalid_argument.", "quantifier": "every array, size and position", "why_tests_cant": "the broken positions depend on an integer division of size by position; only a case analysis over all sizes and positions shows that no position at all works", "anchors": ["src/Common/Impl/ByteHandler/ByteHandler.cpp:ByteHandler::SetBit(Byte*)", "src/Common/Impl/ByteHandler/ByteHandler.cpp:ByteHandler::GetBit(Byte*)"]}
{"id": "C03", "title": "Bit position and byte-count helpers compute the mathematical functions", "statement": "GetHigherBitPos(b)=floor(log2 b) for b>0 (0 for b=0), GetLowerBitPos(b) is the index of the lowest set bit (255 for b=0), CalcRealByteCnt(n) is the least k>=1 with n<256^k.", "quantifier": "every byte; every 64-bit number", "why_tests_cant": "2^64 inputs for CalcRealByteCnt", "anchors": ["src/Common/Impl/ByteHandler/ByteHandler.cpp:GetHigherBitPos", "src/Common/Impl/ByteHandler/ByteHandler.cpp:GetLowerBitPos", "src/Common/Impl/ByteHandler/ByteHandler.cpp:CalcRealByteCnt"]}
{"id": "C04", "title": "Vector2D checked access and shape", "statement": "Vector2D(r,c) has r rows of c default elements when 1<=r,c<=5000 and is empty otherwise (if memory runs out it throws std::bad_alloc, never a partial container); Resize(r,c) always gives r rows of c zero elements whatever the previous contents; At(i,j) returns the element when i,j are in range and throws std::invalid_argument otherwise, never UB; operator! is true exactly when there is no row, an empty row or rows of different length; assigning through v[i][j] changes exactly that element when i,j are in range and is undefined otherwise; Reset leaves no element.", "quantifier": "every shape, index pair and previous content", "why_tests_cant": "all sizes and all histories of the container", "anchors": ["src/Common/Impl/Vector2D/Vector2D.cpp:Vector2D::At", "src/Common/Impl/Vector2D/Vector2D.cpp:Vector2D::Resize", "src/Common/Impl/Vector2D/Vector2D.cpp:Vector2D::operator!", "src/Common/Include/Vector2D.h:operator[]", "src/Common/Impl/Vector2D/Vector2D.cpp:Vector2D::Reset"]}
{"id": "C05", "title": "BitMatrix refines a coordinate->bit map over every history", "statement": "For every history of constructor, Set, SetByte, SetRange (in range), Zeros, Ones, Resize and copy-assignment calls, GetRowCount/GetColumnCount are the last requested dimensions, Get(i,j) in range returns the value last written to (i,j) and has no undefined behaviour; out-of-range Get/Set throws std::runtime_error and changes nothing.", "quantifier": "all operation sequences of any length, all dimensions, all indices", "why_tests_cant": "needs an invariant over arbitrary call histories", "anchors": ["src/Common/Impl/BitMatrix/BitMatrix.cpp:BitMatrix::Get", "src/Common/Impl/BitMatrix/BitMatrix.cpp:BitMatrix::Set", "src/Common/Impl/BitMatrix/BitMatrix.cpp:BitMatrix::SetRange", "src/Common/Impl/BitMatrix/BitMatrix.cpp:BitMatrix::Resize", "src/Common/Impl/BitMatrix/BitMatrix.cpp:BitMatrix::Zeros", "src/Common/Impl/BitMatrix/BitMatrix.cpp:BitMatrix::Ones"]}
{"id": "C06", "title": "SetRange paints exactly the closed rectangle", "statement": "SetRange(i0,j0,i1,j1,v) with i0<=i1<rows and j0<=j1<cols makes exactly the bits with i0<=i<=i1, j0<=j<=j1 equal v and leaves all others; reversed ranges or ends beyond the size throw std::runtime_error. The upper check is off by one: i1==rows is always UB and j1==cols is UB when cols is a multiple of 8 and otherwise only touches padding.", "quantifier": "every matrix, rectangle and value", "why_tests_cant": "all dimension/rectangle combinations, including the boundary the guard misses", "anchors": ["src/Common/Impl/BitMatrix/BitMatrix.cpp:BitMatrix::SetRange", "src/Common/Impl/BitMatrix/BitMatrix.cpp:BitMatrix::UnsafeSet"]}
{"id": "C07", "title": "Ones, Zeros and Resize postconditions", "statement": "After Ones() every Get is true; after Zeros() every Get is false; after Resize(r,c) with r,c>0 dimensions are r,c and all bits are 0 whatever the previous content; Resize with a zero argument throws std::runtime_error and changes nothing; Ones() on a matrix with a zero dimension does not silently corrupt: it throws std::runtime_error or touches nothing observable.", "quantifier": "every matrix state and size", "why_tests_cant": "all sizes", "anchors": ["src/Common/Impl/BitMatrix/BitMatrix.cpp:BitMatrix::Ones", "src/Common/Impl/BitMatrix/BitMatrix.cpp:BitMatrix::Zeros", "src/Common/Impl/BitMatrix/BitMatrix.cpp:BitMatrix::Resize"]}
{"id": "C08", "title": "XOR is pointwise and forms a group", "statement": "a^b of equal-sized valid matrices has the same size and Get(a^b,i,j)=Get(a,i,j)!=Get(b,i,j); hence it is commutative, associative and self-inverse ((a^b)^b reads back a); differing sizes throw std::invalid_argument, empty operands std::runtime_error.", "quantifier": "all pairs/triples of matrices", "why_tests_cant": "all sizes and contents", "anchors": ["src/Common/Impl/BitMatrix/BitMatrix.cpp:operator^"]}
{"id": "C09", "title": "Compare measures the Hamming distance and == / != thresholds", "statement": "For valid equal-sized matrices Compare = 1 - (differing bits)/(rows*cols) (in exact arithmetic), it is symmetric, 1 - Compare is a distance (0 exactly for equal bits, triangle inequality), and Compare is -1 for different sizes or empty matrices. Up to 2^38 cells a==b holds iff differing*10000 <= rows*cols, so it is exact only below 10000 cells: above that, matrices with different bits compare equal, == is not transitive, and at exactly 1/10000 both == and != are true. From about 2^42 cells on rounding blurs the threshold: some bitmaps beyond it are ==, some within it are !=; up to 2^53 cells, though, bitmaps within the threshold are always == and bitmaps at or beyond it always !=. An empty matrix is not == to itself. In double, for at most 2^50 cells, Compare ranks exactly by the number of differing cells: fewer differing cells give a strictly larger value, equal numbers the same value.", "quantifier": "all pairs of matrices", "why_tests_cant": "quantifies over all sizes and contents and over the threshold boundary", "anchors": ["src/Common/Impl/BitMatrix/BitMatrix.cpp:BitMatrix::Compare", "src/Common/Impl/BitMatrix/BitMatrix.cpp:operator==", "src/Common/Impl/BitMatrix/BitMatrix.cpp:operator!=", "src/Common/Impl/BitMatrix/BitMatrix.cpp:BitMatrix::CalcRatio"]}
{"id": "C10", "title": "OneRatio and ZeroRatio are complementary fractions", "statement": "For a non-empty matrix OneRatio = popcount/(rows*cols), ZeroRatio = 1-OneRatio (exact arithmetic), both within [0,1]; for a matrix with no cells both are 0/0 (NaN), not an error code. In double, for two bitmaps of the same size of at most 2^50 cells, OneRatio orders them exactly as the numbers of ones do.", "quantifier": "every matrix", "why_tests_cant": "all sizes and contents", "anchors": ["src/Common/Impl/BitMatrix/BitMatrix.cpp:BitMatrix::OneRatio", "src/Common/Impl/BitMatrix/BitMatrix.cpp:BitMatrix::ZeroRatio", "src/Common/Impl/BitMatrix/BitMatrix.cpp:BitMatrix::CalcRatio"]}
{"id": "C11", "title": "Serialize/DeserializeMatrix round trip: exactly when it works", "statement": "For every valid matrix DeserializeMatrix(Serialize(m)) yields a matrix with the same dimensions and bits if rows*cols is a multiple of 8; in every other case the last partial byte is missing from Serialize's output and deserializing it reads past the end of the buffer (UB). Serialize of an invalid matrix throws std::runtime_error.", "quantifier": "every matrix of any size", "why_tests_cant": "all dimensions; the dropped final byte only shows for some residues", "anchors": ["src/Common/Impl/BitMatrix/BitMatrix.cpp:BitMatrix::Serialize", "src/Common/Impl/BitMatrix/BitMatrix.cpp:BitMatrix::DeserializeMatrix", "src/Common/Impl/BitMatrix/BitMatrix.cpp:SerializeSizes", "src/Common/Impl/BitMatrix/BitMatrix.cpp:SerializeMatrix"]}
{"id": "C12", "title": "Serialize output format and injectivity", "statement": "Serialize output is 18 header bytes (8, rows little-endian, 8, cols little-endian) followed by floor(rows*cols/8) bytes holding the bits row-major, least significant bit first; matrices with a multiple of 8 cells that serialize equally have equal dimensions and bits.", "quantifier": "every valid matrix", "why_tests_cant": "all sizes", "anchors": ["src/Common/Impl/BitMatrix/BitMatrix.cpp:BitMatrix::Serialize"]}
{"id": "C13", "title": "DeserializeMatrix on arbitrary bytes", "statement": "An empty buffer throws std::invalid_argument. For any other buffer the outcome is determined by the first byte k and the buffer length: k>8, or fewer bytes than the header and the announced cells need, is UB; otherwise the result has the announced dimensions and bit (i,j) is bit (i*cols+j)%8 of payload byte (i*cols+j)/8. The second length byte is ignored.", "quantifier": "every byte buffer", "why_tests_cant": "untrusted input of any length", "anchors": ["src/Common/Impl/BitMatrix/BitMatrix.cpp:BitMatrix::DeserializeMatrix"]}
{"id": "C14", "title": "FromString: which bits it fills", "statement": "FromString(s,r,c) throws std::invalid_argument unless |s| = r*c mod 2^32; when it returns, only the first ceil(r/8) rows are filled, byte by byte (MSB first) from s, and every other row is zero; a length check that wraps (e.g. 65536x65536 with an empty string) leads to an out-of-bounds read.", "quantifier": "every string and every pair of 32-bit sizes", "why_tests_cant": "wrap-around and all sizes", "anchors": ["src/Common/Impl/BitMatrix/BitMatrix.cpp:BitMatrix::FromString"]}
{"id": "C15", "title": "Copies are independent, moves leave a trap", "statement": "Copying or copy-assigning a BitMatrix gives equal observations and later writes to either are not visible in the other; moving transfers all observations, but the moved-from object keeps its dimensions with no storage, so any in-range Get on it is UB (not an exception).", "quantifier": "every matrix and every later write", "why_tests_cant": "aliasing/moved-from states over all contents", "anchors": ["src/Common/Impl/BitMatrix/BitMatrix.cpp:BitMatrix::BitMatrix(const BitMatrix&)", "src/Common/Impl/BitMatrix/BitMatrix.cpp:BitMatrix::operator=", "src/Common/Impl/BitMatrix/BitMatrix.cpp:BitMatrix::BitMatrix(BitMatrix&&)"]}
{"id": "C16", "title": "Allocation failure in the constructor is contained, in Resize it is not", "statement": "If allocation fails at any point the sized constructor yields an empty (operator! true, 0x0) matrix and throws nothing; Resize lets the exception escape and leaves the object reporting the new dimensions without full storage, so some later in-range Get is UB (no strong or basic guarantee).", "quantifier": "every size and every failure point", "why_tests_cant": "needs every allocation failure point", "anchors": ["src/Common/Impl/BitMatrix/BitMatrix.cpp:BitMatrix::BitMatrix(size_t,size_t)", "src/Common/Impl/BitMatrix/BitMatrix.cpp:BitMatrix::Resize"]}
{"id": "C17", "title": "Base64 round trip for every variant", "statement": "For every non-empty byte string s and each type in {standard, pem, mime, url}, decoding (same type) the encoding of s returns s exactly; no undefined behaviour on the way. Empty input throws std::invalid_argument in the encoders.", "quantifier": "every byte string of any length, every variant", "why_tests_cant": "all lengths (three residues, line breaks) and all contents", "anchors": ["src/Common/Impl/Base64/Base64.cpp:Base64Encode", "src/Common/Impl/Base64/Base64.cpp:Base64Decode", "src/Common/Impl/Base64/Base64.cpp:InBase64Encode", "src/Common/Impl/Base64/Base64.cpp:StandardDecode"]}
{"id": "C18", "title": "Base64 encoding is the RFC 4648 encoding", "statement": "The standard (url) encoding of s has length 4*ceil(|s|/3); its characters are the 6-bit groups of the big-endian bit string of s (zero padded) mapped through the standard (url) alphabet, followed by (3-|s|%3)%3 padding characters '=' ('.' for url).", "quantifier": "every non-empty byte string", "why_tests_cant": "all lengths and contents against an independent bit-level spec", "anchors": ["src/Common/Impl/Base64/Base64.cpp:InBase64Encode"]}
{"id": "C19", "title": "PEM/MIME line structure", "statement": "PEM/MIME encoding is the standard encoding cut into lines of exactly 64/76 characters (last one shorter, non-empty) joined by CRLF; removing CR and LF gives back the standard encoding.", "quantifier": "every non-empty byte string", "why_tests_cant": "line-boundary cases at all multiples", "anchors": ["src/Common/Impl/Base64/Base64.cpp:EncodeWithSeparator"]}
{"id": "C20", "title": "Base64 decoding of arbitrary input: totality and errors", "statement": "Decode of the empty string throws std::invalid_argument; a string whose length is a multiple of 4 never causes UB: it either returns or throws std::runtime_error on a character outside both alphabets; lengths not a multiple of 4 can read past the end. Decoder output length is at most 3*len/4. Exactly: let p be the base64 digits (of either alphabet) before the first other character. If there is no other character, p decodes to its bytes when its length is a multiple of 4 and the decoder reads past the end otherwise; if the other character is padding in the third or fourth place of its group of four, the result is the whole bytes in the bits of p and the rest of the text is ignored; every other character throws std::runtime_error. PEM and MIME behave so after all CR and LF have been removed.", "quantifier": "every input string", "why_tests_cant": "untrusted input", "anchors": ["src/Common/Impl/Base64/Base64.cpp:StandardDecode", "src/Common/Impl/Base64/Base64.cpp:InGetSymbPosition", "src/Common/Impl/Base64/Base64.cpp:DecodeWithSeparators"]}
{"id": "C21", "title": "Base64 decoding is not canonical", "statement": "Distinct encodings decode to the same bytes: non-zero spare bits and anything after padding are ignored, and both alphabets are accepted; encoding however is injective for each type.", "quantifier": "pairs of inputs", "why_tests_cant": "injectivity quantifies over all pairs", "anchors": ["src/Common/Impl/Base64/Base64.cpp:StandardDecode", "src/Common/Impl/Base64/Base64.cpp:InBase64Encode"]}
{"id": "C22", "title": "Radix-64 (armored) round trip", "statement": "Whenever Base64Encode(s,radix64) returns a text e, Base64Decode(e,radix64)=s, and the empty string maps to itself. The armored text is the MIME text followed by the standard Base64 of the four bytes of its CRC-32, least significant first; when the CRC-32 is zero the encoder throws std::runtime_error instead (such inputs exist). Because the length is passed on in 32 bits, a MIME text of 2^32 or more characters is covered by the checksum only in its first (length mod 2^32) characters, and if that number is 0 the encoder throws std::invalid_argument.", "quantifier": "every byte string, of any length", "why_tests_cant": "one in 2^32 inputs fails; no test will hit it", "anchors": ["src/Common/Impl/Base64/Base64.cpp:Radix64Encode", "src/Common/Impl/Base64/Base64.cpp:Radix64Decode"]}
{"id": "C23", "title": "Radix-64 decoding rejects corruption", "statement": "Whatever string of fewer than 2^32 characters Radix64Decode accepts is an armor body followed by the base64 CRC-32 of that body; changing any single character (or any 4 consecutive characters of the body) of such a text makes decoding throw std::runtime_error. Changing any one or two characters of an armored text of up to 145220 characters, or up to three bits of a body of up to 11454 characters, makes it throw as well. In bodies of 2^32 or more characters, changes behind the first (length mod 2^32) characters that keep the length are not noticed.", "quantifier": "every valid armored text and every change", "why_tests_cant": "all texts and error positions", "anchors": ["src/Common/Impl/Base64/Base64.cpp:Radix64Decode"]}
{"id": "C24", "title": "CRC-32 is the standard bitwise CRC", "statement": "For every non-empty buffer the returned hash equals the bit-by-bit reflected CRC-32 (polynomial 0xEDB88320, init and final xor 0xFFFFFFFF); a null buffer or zero length throws std::invalid_argument.", "quantifier": "every buffer", "why_tests_cant": "a wrong table entry shows only for inputs that hit it; equality with the spec is over all inputs", "anchors": ["src/Common/Impl/Hash/Crc32/Crc32.cpp:Crc32::CalcHash"]}
{"id": "C25", "title": "CRC-32 error detection", "statement": "Two buffers of equal length whose differing bits all lie within 32 consecutive bits (in particular within 4 consecutive bytes) have different CRC-32; hence every single-byte corruption is detected at any position of any buffer. Two flipped bits are missed exactly when their distance is a multiple of 2^32-1, so never in buffers below half a gigabyte. Three flipped bits are always detected if they lie within 91639 consecutive bits, so in buffers of up to 11454 bytes, and not always beyond that. Any change of two bytes less than 145212 bytes apart is detected, and not always beyond that. Exchanging two different bytes is detected unless their distance is a multiple of 2^32-1. Whatever stands before and after, exactly one choice of four bytes gives any wanted hash (so it is no protection against intent).", "quantifier": "every buffer, every burst error up to 32 bits, every two-bit error, every three-bit error in the range stated, every change of two bytes in the range stated, every exchange of two bytes, every wanted hash", "why_tests_cant": "linear algebra over all lengths", "anchors": ["src/Common/Impl/Hash/Crc32/Crc32.cpp:Crc32::CalcHash"]}
{"id": "C26", "title": "RLE matrix round trip", "statement": "For every valid matrix m with r>0 rows and c>0 columns, both below 2^32 (the uint32_t parameters), DecodeMatrix(Encode(m), r, c) has the same dimensions and every bit equal; no exception, no UB. Matrices of the same size with the same code have the same bits.", "quantifier": "every matrix", "why_tests_cant": "all sizes, run lengths above 127 and run/row boundary interactions", "anchors": ["src/Common/Impl/RunLengthEncoding/RunLengthEncoding.cpp:RLE::Encode(BitMatrix)", "src/Common/Impl/RunLengthEncoding/RunLengthEncoding.cpp:RLE::DecodeMatrix"]}
{"id": "C27", "title": "RLE code structure", "statement": "Encode(m) of a valid matrix is a list of bytes whose top bit is the pixel value and low 7 bits the run length; run lengths sum to rows*cols, each at most 127. Byte for byte: the cells row by row fall into maximal runs in exactly one way, and a run of n cells gives floor(n/127) bytes of length 127 and one byte of length n mod 127 (possibly 0), so the code has sum(floor(n/127)+1) bytes, at most one per cell. The decoder accepts every byte string without throwing (writes beyond the matrix are ignored, missing cells stay 0).", "quantifier": "every matrix / every byte string", "why_tests_cant": "all inputs", "anchors": ["src/Common/Impl/RunLengthEncoding/RunLengthEncoding.cpp:RLE::Encode(BitMatrix)", "src/Common/Impl/RunLengthEncoding/RunLengthEncoding.cpp:RLE::DecodeMatrix"]}
{"id": "C28", "title": "String RLE is not implemented", "statement": "Users expect Decode(Encode(s))=s; for every string both directions of the string API return the empty string, so only the empty string round-trips.", "quantifier": "every string", "why_tests_cant": "universal failure claim", "anchors": ["src/Common/Impl/RunLengthEncoding/RunLengthEncoding.cpp:RLE::Encode(string)", "src/Common/Impl/RunLengthEncoding/RunLengthEncoding.cpp:RLE::Decode", "src/Common/Impl/RunLengthEncoding/RunLengthEncoding.cpp:RLE::ByteDecode"]}
{"id": "C29", "title": "Workspace rectangle validation and membership", "statement": "WorkspaceCoords::SetAngleCoords accepts exactly left<=right and top>=bottom and leaves the old corners on failure; isInWorkspace is true exactly for points strictly inside.", "quantifier": "all coordinates", "why_tests_cant": "all 32-bit coordinate combinations", "anchors": ["src/Common/Impl/LayoutMatrix/LayoutMatrix.cpp:WorkspaceCoords::SetAngleCoords", "src/Common/Impl/LayoutMatrix/LayoutMatrix.cpp:WorkspaceCoords::isInWorkspace"]}
{"id": "C30", "title": "Layout hash round trip: exactly when it works", "statement": "EncodeHash throws for a matrix without cells; for every other it returns a text, or throws std::runtime_error because the checksum happens to be 0, or (only from 2^31 cells on) may throw std::invalid_argument. If it returns a text and the dimensions are below 2^32, DecodeHash restores dimensions and bits on platforms with modulo-64 shifts if all dimension bytes are below 0x80 or char is unsigned; with signed char every other size (below 2^31 rows), e.g. 128 columns, is decoded to a wrong size. A matrix with 2^32 or more rows or columns never comes back. In ISO C++ every non-trivial decode is UB because the size field is shifted by 64..120 bits. Two matrices with dimensions below 2^32 that have hashes have the same hash exactly when they have the same size and the same bits.", "quantifier": "every matrix and platform", "why_tests_cant": "sign-extension and shift semantics over all dimension values", "anchors": ["src/Common/Impl/LayoutMatrix/LayoutMatrix.cpp:LayoutMatrix::EncodeHash", "src/Common/Impl/LayoutMatrix/LayoutMatrix.cpp:LayoutMatrix::DecodeHash", "src/Common/Impl/LayoutMatrix/LayoutMatrix.cpp:EncodeSz", "src/Common/Impl/LayoutMatrix/LayoutMatrix.cpp:DecodeSz"]}
{"id": "C31", "title": "Layout hash tamper detection", "statement": "DecodeHash never succeeds on a hash of fewer than 2^32 characters in which any single character was replaced, nor on any proper prefix of a hash (torn write): it throws an exception, independent of platform. The same holds if any two characters of a hash of up to 145282 characters were replaced, if up to three bits of a hash of up to 11524 characters other than its checksum characters were flipped, and for any change (in a hash of fewer than 2^32 characters) that leaves the body as it is. Whatever text below 2^32 characters it accepts is framed by the two marker lines and carries the checksum of its body.", "quantifier": "every valid hash, every position, every replacement, every prefix length, every pair of positions, every three bits", "why_tests_cant": "all hashes and corruption points", "anchors": ["src/Common/Impl/LayoutMatrix/LayoutMatrix.cpp:LayoutMatrix::DecodeHash"]}
{"id": "C32", "title": "Flush then read restores the matrix; failed reads leave the object unchanged", "statement": "After FlushFile succeeded and all its bytes reached the file, ReadFile on the same file yields the same matrix (under the round-trip conditions of C30); if fewer bytes reached it, FlushFile still returns true but ReadFile throws. ReadFile that returns false or throws leaves the object's previous matrix unchanged, and FlushFile touches no other file.", "quantifier": "every matrix, file system content and failure", "why_tests_cant": "all contents and failure modes", "anchors": ["src/Common/Impl/LayoutMatrix/LayoutMatrix.cpp:LayoutMatrix::ReadFile", "src/Common/Impl/LayoutMatrix/LayoutMatrix.cpp:LayoutMatrix::FlushFile"]}
{"id": "C33", "title": "FlushFile is not atomic", "statement": "FlushFile truncates the target before encoding, so whenever encoding throws (empty matrix, zero CRC) the previous file content is lost although the call failed.", "quantifier": "every previous content", "why_tests_cant": "crash/failure point property", "anchors": ["src/Common/Impl/LayoutMatrix/LayoutMatrix.cpp:LayoutMatrix::FlushFile"]}
{"id": "C34", "title": "LayoutMatrix construction and assignment", "statement": "Copy operations preserve dimensions and bits; constructing a LayoutMatrix from a BitMatrix rvalue keeps the row count but reports zero columns, so every Get throws; self-move-assignment empties the matrix.", "quantifier": "every matrix", "why_tests_cant": "all contents", "anchors": ["src/Common/Impl/LayoutMatrix/LayoutMatrix.cpp:LayoutMatrix::LayoutMatrix", "src/Common/Impl/LayoutMatrix/LayoutMatrix.cpp:LayoutMatrix::operator="]}
{"id": "C35", "title": "Path to rectangle conversion loses the path", "statement": "For every path of n>=1 points for which the conversion does not overflow, PathToRectList returns n-1 rectangles, all equal: five corner points, zero size, located at the origin (0,0), on the path's layer, whatever the points and the width are (both orientation cases of the corner computation fall through to the default return). Points and widths up to 2^30 never overflow. Anything that is not a path (or null) throws invalid_argument; a path without points is undefined behaviour. Exactly when a path can be converted is also fixed: for every segment the sums formed for its corners must fit a 32-bit integer (start widened and lengthened by half the width, end likewise unless it is the last segment; a segment of length zero needs nothing); as soon as one segment does not fit, the call is undefined behaviour.", "quantifier": "every path", "why_tests_cant": "all lengths, orientations, widths", "anchors": ["src/Common/Impl/LayoutConverter/LayoutConverter.cpp:LayoutConverter::PathToRectList", "src/Common/Impl/LayoutConverter/LayoutConverter.cpp:InCalcRectAngles", "src/Common/Impl/LayoutConverter/LayoutConverter.cpp:InFillBox"]}
{"id": "C36", "title": "Structure-reference flattening", "statement": "Whenever SplitSref returns, its result lists, in order and with repetitions, the polygons and rectangles of the referenced element and of all elements reachable through nested references, each moved by the sum of the entered elements' lower-left corners (plus the given offset), and one origin rectangle (moved in the same way) per path segment; texts are dropped and the placement stored in the references is ignored. On an acyclic reference graph the call always ends and, if all referenced elements exist and coordinates fit, succeeds; a reference from which a cycle can be reached never returns. Null gives an empty list; a non-reference argument or a reference without element is undefined behaviour.", "quantifier": "every element graph", "why_tests_cant": "unbounded nesting", "anchors": ["src/Common/Impl/LayoutConverter/LayoutConverter.cpp:LayoutConverter::SplitSref"]}
{"id": "C37", "title": "Rasterisation only sets bits and stays inside the bitmap", "statement": "For every geometry pointer (null included), every configuration of the rasteriser, every rounding of double arithmetic and every bitmap: if ZondGeometry returns, the bitmap has the same size, every bit that was 1 is still 1, and every bit that became 1 is inside the bitmap and not past the configured end indices; if it throws, the exception is invalid_argument and the bitmap is unchanged. Polygons are never drawn; paths, references, texts and undefined geometries always throw; null and rectangles with fewer than three points are undefined behaviour. For a rectangle there is no undefined behaviour when the bound indices are below 2^31-1, the four coordinate differences are ints and the far ends are at most 2^31-1 cells away; a coordinate difference that overflows is undefined behaviour unless the rectangle covers the workspace (so always when it misses the centre of some cell by a thousandth of a cell).", "quantifier": "every geometry, workspace, bitmap", "why_tests_cant": "all coordinates and sizes incl. float rounding", "anchors": ["src/Common/Impl/LayoutBitmapZond/LayoutBitmapZond.cpp:LayoutZond::ZondGeometry", "src/Common/Impl/LayoutBitmapZond/LayoutBitmapZond.cpp:ZondRectangle", "src/Common/Impl/LayoutBitmapZond/LayoutBitmapZond.cpp:NormIndicies"]}
{"id": "C38", "title": "Rasterisation is idempotent and order independent", "statement": "Whenever drawing a geometry returns, drawing it again on the result changes nothing; two geometries, even with two differently configured rasterisers, give the same bitmap in either order; any permutation of a list of geometries gives the same bitmap. The calls for one kind of geometry agree with that: ZondRectangle draws any geometry with at least three points as a rectangle with these points, whatever its type says, and is undefined for null or fewer points; ZondPolygon draws nothing.", "quantifier": "all pairs of geometries and any rounding", "why_tests_cant": "permutation property over all inputs", "anchors": ["src/Common/Impl/LayoutBitmapZond/LayoutBitmapZond.cpp:LayoutZond::ZondRectangle"]}
{"id": "C39", "title": "Rasterised rectangle covers the cells whose centre it contains", "statement": "For a rasteriser configured for a whole workspace divided into R x C equal cells and every rectangle that does not stick out at the left or top: in exact arithmetic the painted cells are exactly those whose centre is between the ends up to the tolerance, plus the overshoot (the cell after the one containing the end when the end is in the second half of its cell, and the last cell once the end reaches it); in double arithmetic with tolerance 1e-13 every cell whose centre is in the rectangle is painted provided C^2<=100*width and R^2<=100*height. A rectangle covering the workspace sets every bit (cells of at least 2^-20 units). A rectangle sticking out at the left or top that misses the centre of some cell by a thousandth of a cell throws invalid_argument and draws nothing. In double arithmetic nothing far is drawn either: whatever the rectangle, a cell that is newly on overlaps the rectangle extended by half a cell to the right and to the bottom (up to 1/1000 of a cell). And if the rectangle starts inside the workspace and its sides keep a thousandth of a cell away from all borders and centre lines of cells (or lie on the workspace border, or beyond it at the right and bottom), the cells drawn in double arithmetic are exactly those of exact arithmetic without tolerance.", "quantifier": "all rectangles and grids", "why_tests_cant": "all coordinates", "anchors": ["src/Common/Impl/LayoutBitmapZond/LayoutBitmapZond.cpp:LayoutZond::NormIndicies", "src/Common/Impl/LayoutBitmapZond/LayoutBitmapZond.cpp:LayoutZond::ZondRectangle"]}
{"id": "C40", "title": "Bitmap generator life cycle", "statement": "LayoutBitmapGenerator::Init with a null layout or an empty layer set throws invalid_argument and changes nothing. Whatever other calls came before, the first Init with a layout and a layer succeeds exactly when the lower left corner is not right of or above the upper right one; after such a call, even a refused one, every Init throws and changes nothing. Process with a zero size throws and changes nothing; Process before any Init has returned dereferences a null pointer; by the letter of the standard Process after Init is undefined too, because it reads data[0].size() of an emptied fragment matrix.", "quantifier": "every call history", "why_tests_cant": "state machine over all call sequences", "anchors": ["src/Common/Impl/LayoutBitmapGenerator/LayoutBitmapGenerator.cpp:LayoutBitmapGenerator::Init", "src/Common/Impl/LayoutBitmapGenerator/LayoutBitmapGenerator.cpp:LayoutBitmapGenerator::Process"]}
{"id": "C41", "title": "Generator: what the bitmap shows", "statement": "After an Init that returned, for every later history, Process(R,C) that returns returns true, the matrix is R x C, the text printed is that matrix, and a cell is on exactly when some selected geometry drawn alone turns it on; selected are, per library, the geometries of the first layer whose number is requested and whose bounding box touches the workspace (paths as origin rectangles, references flattened). Further requested layers in the same library are silently dropped. Process throws only when a selected geometry alone throws; earlier Process calls and edits leave no trace; a workspace wider than 2^31-1 is undefined; every cell whose centre lies in a selected rectangle is on.", "quantifier": "every call history, layout, layer list, size and rounding mode satisfying the IEEE bounds", "why_tests_cant": "all layouts", "anchors": ["src/Common/Impl/LayoutBitmapGenerator/LayoutBitmapGenerator.cpp:LayoutBitmapGenerator::InitGeometryItems"]}
{"id": "C42", "title": "MSK reader: what a file means is what the layout contains", "statement": "For every text in which every line has a meaning and some line gives a box, Read into an empty layout returns true; the layout then has one library with one element (named after the file) that holds, in file order, one closed rectangle per meaningful REC or BB line: a REC(x,y,w,h,layer) line gives the rectangle between (x,y) and (x+w,y+h) with the layer number of the table, unknown layers are dropped, BB(x1,y1,x2,y2) gives a rectangle on layer -5. Layers are listed in order of first occurrence and each contains exactly its boxes in order (every BB line opens a layer of its own); the element's bounding box is the smallest around all boxes. A file written in the prescribed form reads back exactly, with LF or CR LF line ends. Reading into a layout that already has a library appends one but recomputes the box of the first element, leaving the new one at (-1,-1). The library has the default units, the doubles nearest to 0.001 and 1e-9.", "quantifier": "every file content (any length, any bytes) and prior layout", "why_tests_cant": "all line sequences", "anchors": ["src/Common/Impl/LayoutReader/ReaderImpl/MskReader.cpp:MSKReader::Read", "src/Common/Impl/LayoutReader/ReaderImpl/MskReader.cpp:ReadSectionRectangle", "src/Common/Impl/LayoutReader/ReaderImpl/MskReader.cpp:FillBox"]}
{"id": "C43", "title": "MSK reader: malformed input", "statement": "Outcome of Read on arbitrary input: a null layout returns false and changes nothing; a file that cannot be opened returns false and only resets the file format, but after an earlier successful Read of the same reader it deletes objects the caller owns (undefined behaviour). With a readable file and an empty layout Read returns true exactly when every line has a meaning and some line gives a box; in all other cases (a REC line cut short, a number or sum outside 32 bits, an over-long layer name or title, no box at all) the behaviour is undefined; it never returns false and never throws.", "quantifier": "every text file and every reader state", "why_tests_cant": "untrusted input", "anchors": ["src/Common/Impl/LayoutReader/ReaderImpl/MskReader.cpp:MSKReader::Read", "src/Common/Impl/LayoutReader/ReaderImpl/MskReader.cpp:ParseRecLine"]}
{"id": "C44", "title": "GDSII integer conversions", "statement": "For every two (four) bytes of a file, Normalize_WORD (Normalize_DWORD) returns the signed big-endian number they stand for; the bytes of -2147483648 make Normalize_DWORD overflow (undefined behaviour). DeNormalize_WORD and DeNormalize_DWORD produce the big-endian bytes of every number and are inverse to Normalize wherever that is defined.", "quantifier": "all 2^16 / 2^32 values", "why_tests_cant": "exhaustive 32-bit", "anchors": ["src/Common/Impl/LayoutReader/Helpers/GDSIIHelperFunctions.cpp:Normalize_WORD", "src/Common/Impl/LayoutReader/Helpers/GDSIIHelperFunctions.cpp:DeNormalize_WORD", "src/Common/Impl/LayoutReader/Helpers/GDSIIHelperFunctions.cpp:Normalize_DWORD", "src/Common/Impl/LayoutReader/Helpers/GDSIIHelperFunctions.cpp:DeNormalize_DWORD"]}
{"id": "C45", "title": "GDSII real conversion", "statement": "Normalize_DOUBLE turns every eight bytes into the GDSII real they stand for, (-1)^s * m/2^56 * 16^(e-64), correctly rounded to 53 bits. DeNormalize_DOUBLE followed by Normalize_DOUBLE gives back every double of absolute value from 2^-52 to 16^63 that is not a power of 16; powers of 16 and numbers below 2^-52 in absolute value come back as 0, numbers above 16^63 in absolute value come back as negative numbers below 16^-64 in absolute value or as 0, and an infinity is undefined behaviour.", "quantifier": "all 2^64 encodings and all finite doubles (rounding to nearest even)", "why_tests_cant": "exhaustive 64-bit", "anchors": ["src/Common/Impl/LayoutReader/Helpers/GDSIIHelperFunctions.cpp:Normalize_DOUBLE", "src/Common/Impl/LayoutReader/Helpers/GDSIIHelperFunctions.cpp:DeNormalize_DOUBLE"]}
{"id": "C46", "title": "GDSII reader never delivers a layout", "statement": "On every LayoutReader_GDSIIbin object, after any sequence of IsMyFormat and Read calls, for every set of files and every layout argument (also a null pointer), Read returns false and leaves the layout and the reader unchanged.", "quantifier": "every call history of a reader, every file system, every layout argument", "why_tests_cant": "universal failure claim", "anchors": ["src/Common/Impl/LayoutReader/ReaderImpl/GdsiiBinaryReader.cpp:LayoutReader_GDSIIbin::Read"]}
{"id": "C47", "title": "GDSII layer enumeration", "statement": "The layer enumeration of the GDSII reader gives each library one layer per distinct (layer, data type) pair of its non-reference geometries that it has no layer for yet; the layer numbers come out ascending but the data types (and the names and geometries of layers that existed) stay in their order. So for a library without layers the result is right if the pairs first occur in ascending order of layer number, and then enumerating again changes nothing; two polygons on layers n > m with different data types yield two layers that do not exist in the file; and a library whose layers n > m already hold geometries gets the two numbers exchanged, so that each number lists the geometries of the other.", "quantifier": "every library without null pointers, with or without layers, any number of elements and geometries", "why_tests_cant": "all layouts", "anchors": ["src/Common/Impl/LayoutReader/ReaderImpl/GdsiiBinaryReader.cpp:LayoutReader_GDSIIbin::EnumerateLayers"]}
{"id": "C48", "title": "Rasteriser tolerance and cell size setters", "statement": "SetEps validates the stored tolerance instead of its argument: while the stored one is within [0,0.5] any value is accepted, and after an out-of-range value has been stored every further call throws invalid_argument and the stored value never changes. SetDeltas throws invalid_argument exactly when one of the two values is negative, otherwise stores both and changes nothing else.", "quantifier": "every value (infinities and NaN included) and every sequence of calls", "why_tests_cant": "history property over unbounded call sequences", "anchors": ["src/Common/Impl/LayoutBitmapZond/LayoutBitmapZond.cpp:LayoutZond::SetEps", "src/Common/Impl/LayoutBitmapZond/LayoutBitmapZond.cpp:LayoutZond::SetDeltas"]}
{"id": "C49", "title": "Printed text of a bit matrix", "statement": "BitMatrix::Print of every matrix obtained through the API writes one line per row in order, with 1 for every set bit and 0 for every clear one, each line ended by a line feed, and one more line feed at the end; different matrices with at least one row print differently.", "quantifier": "every bit matrix", "why_tests_cant": "all sizes and contents", "anchors": ["src/Common/Impl/BitMatrix/BitMatrix.cpp:BitMatrix::Print"]}
{"id": "C50", "title": "Which files get a reader", "statement": "GetReader returns a reader exactly when the file name (every character cut to a byte) ends in a letter, digit or underscore followed by .msk in any case, the file exists and its text begins with VERSION; the reader is then set to that file and ready to Read it. Asking a reader about an existing empty file refuses it and blocks the reader: it refuses every later file. The element read from a file is named by the part between the last slash and the last dot.", "quantifier": "every file name, file system content and sequence of IsMyFormat calls", "why_tests_cant": "all names and histories", "anchors": ["src/Common/Impl/LayoutReader/LayoutReader.cpp:GetReader", "src/Common/Impl/LayoutReader/ReaderImpl/MskReader.cpp:MskReader::IsMyFormat", "src/Common/Impl/LayoutReader/ReaderImpl/MskReader.cpp:MskReader::GetElemName"]}
{"id": "C51", "title": "GDSII format recognition", "statement": "LayoutReader_GDSIIbin::IsMyFormat returns true exactly for names that end in .gds or .gdsii (lower case; or are just that) of existing files starting with a 2-byte HEADER record and a BGNLIB record header of length 24 (whose last byte may be cut off by the end of the file); it is undefined behaviour exactly for such names of files shorter than 3 bytes or of the form ?? ?? 00; otherwise it returns false. It always stores the name.", "quantifier": "every name shorter than 2^64 and every file content", "why_tests_cant": "all file contents, including truncated ones; indeterminate reads are invisible to tests", "anchors": ["src/Common/Impl/LayoutReader/ReaderImpl/GdsiiBinaryReader.cpp:LayoutReader_GDSIIbin::IsMyFormat"]}
{"id": "C52", "title": "GDSII post-processing", "statement": "For every layout without null pointers: if every reference names an element, the post-processing succeeds, each reference points to the first element of that name in library order, exactly the elements referred to (and those already nested) are nested, layers are enumerated as in C47 and each library's box is the box of its last non-nested element; otherwise it returns false with the libraries unchanged, and the elements are unchanged except that some references may have been resolved and the elements they lead to marked nested.", "quantifier": "every list of libraries, elements and references (including self references and shared elements)", "why_tests_cant": "all layouts", "anchors": ["src/Common/Impl/LayoutReader/ReaderImpl/GdsiiBinaryReader.cpp:LayoutReader_GDSIIbin::PostProcessLayout", "src/Common/Impl/LayoutReader/ReaderImpl/GdsiiBinaryReader.cpp:LayoutReader_GDSIIbin::ResolveStructureReference", "src/Common/Impl/LayoutReader/ReaderImpl/GdsiiBinaryReader.cpp:LayoutReader_GDSIIbin::EvaluateBoundingBox"]}
{"id": "C53", "title": "GDSII record parser", "statement": "For every well-formed GDSII stream file of one library (HEADER, BGNLIB, LIBNAME, unused records, UNITS, structures of BOUNDARY/PATH/BOX/TEXT/SREF elements with their optional records and at most one property, ENDLIB, any number of trailing zero bytes), the record loop of the GDSII reader appends exactly one library with the name, units (correctly rounded reals) and elements of the file: every geometry with its layer, types, width, flags, magnification, coordinates, strings and bounding box, every structure with its name, flat flag and box, in file order; once the reader holds a layout, Read then returns true with that library post-processed. Property values are lost, and a second property on an element leaves the data of its PROPATTR record unread, so the reader takes it for the next record.", "quantifier": "every well-formed file: any number of structures, elements, coordinates, strings, unused records, trailing zeros; any libraries already present", "why_tests_cant": "the space of files is unbounded; record order, optional records and padding combine freely", "anchors": ["src/Common/Impl/LayoutReader/ReaderImpl/GdsiiBinaryReader.cpp:LayoutReader_GDSIIbin::Read", "src/Common/Impl/LayoutReader/ReaderImpl/GdsiiBinaryReader.cpp:LayoutReader_GDSIIbin::ReadSection_XY", "src/Common/Impl/LayoutReader/ReaderImpl/GdsiiBinaryReader.cpp:LayoutReader_GDSIIbin::ReadSection_ENDSTRUCTURE"]}
{"id": "C54", "title": "Fragment life cycle", "statement": "For every sequence of calls on a Fragment that stays defined: SetMatrix(nullptr) throws invalid_argument and keeps the old matrix; Process throws runtime_error (changing nothing) exactly when no matrix was set since construction or the last Reset; otherwise it computes the cell sizes |x extent| / columns and |y extent| / rows (correctly rounded; infinite or NaN for an empty index range), hands them to its rasteriser and draws nothing; it is undefined exactly when an extent does not fit 32 bits. Reset clears matrix, workspace and shared geometries but keeps the geometries pushed by raw pointer, the index bounds and the rasteriser settings. GeometryWorkspaceIntersection is true exactly when the closed boxes meet, false for null.", "quantifier": "every call history; every workspace, index range and geometry; any correct rounding", "why_tests_cant": "histories are unbounded", "anchors": ["src/Common/Impl/LayoutFragment/LayoutFragment.cpp:Fragment::Process", "src/Common/Impl/LayoutFragment/LayoutFragment.cpp:Fragment::Reset", "src/Common/Impl/LayoutFragment/LayoutFragment.cpp:Fragment::GeometryWorkspaceIntersection"]}
{"id": "C55", "title": "Printed text of a geometry", "statement": "LayoutPrinter::PrintGeometry writes for a rectangle with at least three coordinates a fixed text with its layer, box, type, first and third coordinate, indented by the depth, and the text determines all of these; a rectangle with fewer coordinates is undefined behaviour, a null pointer only yields a message on the error stream, every other geometry prints nothing.", "quantifier": "every geometry, every depth, every pair of geometries", "why_tests_cant": "injectivity over all 32-bit values", "anchors": ["src/Common/Impl/UnitTests/LayoutPrinter/LayoutPrinter.cpp:LayoutPrinter::PrintGeometry"]}
{"id": "C56", "title": "Randm fills from one time-seeded engine", "statement": "BitMatrix::Randm keeps the dimensions and overwrites every cell, in row-major order, with the parity of the successive outputs of one engine seeded with the current second; so equal-sized matrices filled within the same second are identical, whatever they held before.", "quantifier": "every matrix, every engine, every seed", "why_tests_cant": "the seed is the wall clock: a test cannot fix it, nor cover every shape", "anchors": ["src/Common/Impl/BitMatrix/BitMatrix.cpp:BitMatrix::Randm"]}
{"id": "C57", "title": "Arbitrary GDSII input", "statement": "Whatever bytes a .gds file has, once Read parses it: it never throws, it ends at the end of the file, and unless it is undefined behaviour the libraries that were there before are untouched and behind them stand new libraries without null pointers whose elements are all new, each listed exactly once, in order of creation, with consistent boxes, flat flags and numbers in range; at most one new element (the structure the file ends in) is listed nowhere. Read then returns true exactly if every reference names a listed element, and post-processes old and new libraries alike. If the file cannot be opened, Read returns false and changes nothing in the layout.", "quantifier": "every byte sequence, every previous layout, every host rounding", "why_tests_cant": "the space of files is infinite; tests only use well-formed samples", "anchors": ["src/Common/Impl/LayoutReader/ReaderImpl/GdsiiBinaryReader.cpp:LayoutReader_GDSIIbin::Read", "src/Common/Impl/LayoutReader/ReaderImpl/GdsiiBinaryReader.cpp:LayoutReader_GDSIIbin::PostProcessLayout"]}
{"id": "C58", "title": "Ownership and destruction of a layout", "statement": "Destroying a LayoutData deletes exactly the elements its libraries list and is defined exactly if each exists and is listed once; destroying a copy afterwards is undefined. Every layout read by the GDSII or MSK reader into an empty LayoutData owns its elements; only the structure in which a GDSII file ends is leaked. By the standard the destruction of any layout with a geometry is undefined, because Geometry has no virtual destructor.", "quantifier": "every layout, every element store, every file", "why_tests_cant": "double deletes and leaks depend on every history of allocations; wrong-destructor deletes pass unnoticed in tests", "anchors": ["src/Common/Include/LayoutData.hpp:LayoutData::~LayoutData", "src/Common/Include/LayoutData.hpp:Library::~Library", "src/Common/Include/LayoutData.hpp:Element::~Element", "src/Common/Include/LayoutData.hpp:Geometry"]}
{"id": "C59", "title": "Truncated GDSII files", "statement": "If a file that can be read is cut off at any byte, reading the rest is undefined behaviour or yields only structures that the whole file yields too, in the same library, at the same position, with identical contents, and without gaps; for a well-formed file these are its first structures.", "quantifier": "every file, every cut, every previous layout", "why_tests_cant": "every byte position of every file is a crash point", "anchors": ["src/Common/Impl/LayoutReader/ReaderImpl/GdsiiBinaryReader.cpp:LayoutReader_GDSIIbin::Read", "src/Common/Impl/LayoutReader/ReaderImpl/GdsiiBinaryReader.cpp:LayoutReader_GDSIIbin::ReadSection_ENDSTRUCTURE"]}
{"id": "C60", "title": "Causes of undefined behaviour in GDSII files", "statement": "Parsing a GDSII file is undefined only if the bytes 80 00 00 00 occur in it or it ends inside the data of something that looks like a record (dates, one 16-bit number, a width, or points); hence every file without these four bytes that is followed by 65532 zeros is read. A file that ends inside the dates of its library is always undefined.", "quantifier": "every byte sequence, every number of zeros", "why_tests_cant": "absence of undefined behaviour is a claim about all files", "anchors": ["src/Common/Impl/LayoutReader/ReaderImpl/GdsiiBinaryReader.cpp:LayoutReader_GDSIIbin::Read", "src/Common/Impl/LayoutReader/ReaderImpl/GdsiiBinaryReader.cpp:LayoutReader_GDSIIbin::ReadSection_XY", "src/Common/Impl/LayoutReader/Helpers/GDSIIHelperFunctions.cpp:Normalize_DWORD"]}
{"id": "C61", "title": "Skipped and misplaced GDSII records", "statement": "A record of an unknown type is skipped with its data in every state. A record of a known type that is out of place is not skipped: the reader goes on inside its data as if they were records. In particular an array reference (AREF, SNAME, \u2026) puts the reader out of step.", "quantifier": "every parser state, every record, every continuation", "why_tests_cant": "every combination of state and record; the effect depends on the data bytes", "anchors": ["src/Common/Impl/LayoutReader/ReaderImpl/GdsiiBinaryReader.cpp:LayoutReader_GDSIIbin::Read", "src/Common/Impl/LayoutReader/ReaderImpl/GdsiiBinaryReader.cpp:LayoutReader_GDSIIbin::ReadSection_SNAME"]}
{"id": "C62", "title": "From an MSK file to the bitmaps of its layers", "statement": "Reading a well formed MSK file of rectangles into an empty layout, initialising a generator on it with a window, and asking for one bitmap per layer number (any list, absent and repeated layers included) returns normally, and each bitmap shows exactly the rectangles of its layer: every cell whose centre is in one of them is on, and every cell that is on is on one of them extended by half a cell to the right and bottom. This holds for windows such that each requested rectangle meeting the window starts in it or covers it, in particular always for the bounding box Read stored; the bitmap survives saving and loading.", "quantifier": "all files of rectangles, windows, grids with C^2<=100*width and R^2<=100*height, lists of layer numbers, memory contents", "why_tests_cant": "the composition ranges over all files, windows and layer sequences", "anchors": ["src/Common/Impl/LayoutReader/ReaderImpl/MskReader.cpp:MskReader::Read", "src/Common/Impl/LayoutBitmapGenerator/LayoutBitmapGenerator.cpp:LayoutBitmapGenerator::Process", "src/Common/Impl/LayoutBitmapZond/LayoutBitmapZond.cpp:LayoutZond::ZondGeometry", "src/Common/Impl/LayoutMatrix/LayoutMatrix.cpp:LayoutMatrix::FlushFile"]}
{"id": "C63", "title": "A GDSII layout draws nothing", "statement": "However many GDSII files are read into a layout that was empty, and whatever the calls of Read return, the layers of its libraries list no geometries. So a generator initialised with such a layout produces, for every window, every list of layers and every grid size, a matrix of the requested size in which no cell is on, and Process returns true.", "quantifier": "every sequence of Read calls on any files and readers, every generator history, window, layer list and grid size", "why_tests_cant": "the claim is about all files and all requests; a test shows one dark bitmap", "anchors": ["src/Common/Impl/LayoutReader/ReaderImpl/GdsiiBinaryReader.cpp:LayoutReader_GDSIIbin::EnumerateLayers", "src/Common/Impl/LayoutReader/ReaderImpl/GdsiiBinaryReader.cpp:LayoutReader_GDSIIbin::Read", "src/Common/Impl/LayoutBitmapGenerator/LayoutBitmapGenerator.cpp:LayoutBitmapGenerator::Process"]}
{"id": "C64", "title": "Matrix files behave like a map, over every history", "statement": "Starting in a directory without matrix files, any sequence of FlushFile and ReadFile calls on any objects and names, with any other changes of the objects in between, names that cannot be opened, and writes torn anywhere, runs without undefined behaviour, and what the client sees is what a map from names to matrices says: a read gives the matrix last flushed under that name (same size and bits) and returns true; it throws and leaves the object alone if that flush was torn or failed; it returns false and leaves the object alone if there was none or the file cannot be opened. Other files and objects are not affected.", "quantifier": "every finite sequence of calls, every assignment of matrices to objects, every torn write and unreadable name; on platforms with modulo-64 shifts, matrices below 2^31 cells and dimensions the platform can read back (C30)", "why_tests_cant": "unbounded histories and failure points", "anchors": ["src/Common/Impl/LayoutMatrix/LayoutMatrix.cpp:LayoutMatrix::FlushFile", "src/Common/Impl/LayoutMatrix/LayoutMatrix.cpp:LayoutMatrix::ReadFile"]}
{"id": "C65", "title": "A pattern gives the same bitmap wherever it lies", "statement": "If all shapes in the layers of a layout (rectangles, polygons, texts; no paths, no references) and the window passed to Init are moved by the same vector, Process does the same: it returns, throws or is undefined alike, with the same bitmap and the same printed text. In exact arithmetic this holds without restriction; in double arithmetic it holds for cells of at least 1/256 unit if no side of a drawn rectangle is within a thousandth of a cell of the centres of the first or last column or row. Without that condition it fails: a rectangle starting exactly at the first column's centre and sticking out at the top throws near the origin and fills the bitmap far from it.", "quantifier": "every layout, window, vector, bitmap size and rounding", "why_tests_cant": "all positions; the failing cases depend on rounding at large coordinates", "anchors": ["src/Common/Impl/LayoutBitmapGenerator/LayoutBitmapGenerator.cpp:LayoutBitmapGenerator::Process", "src/Common/Impl/LayoutBitmapZond/LayoutBitmapZond.cpp:LayoutZond::ZondRectangle"]}
{"id": "C66", "title": "Fragments divide the bitmap and the window", "statement": "The fragment set-up (private, not called by Process): with at least as many bitmap rows and columns as fragment rows and columns, every cell of the first R - R % FR rows and C - C % FC columns belongs to exactly one fragment and the remaining cells to none, so all cells are covered exactly if the divisions leave no remainder (the test for this is commented out). With more fragment rows (columns) than bitmap rows (columns) every fragment claims every row (column); with no fragments, the state Init leaves, the division is undefined. The rectangles of the fragments share common edges that start in the left top corner, are ordered, and are each at most one unit (and rounding) from the exact place; so every point at least one unit from the right and bottom edges lies in a fragment, in exact arithmetic every point; in double arithmetic the right edge can be left out (61 units in seven parts). In exact arithmetic with fewer than 2^32 fragments, a geometry whose box touches the window is counted by at least one of them.", "quantifier": "every bitmap size, fragment grid, window and rounding", "why_tests_cant": "all sizes and roundings; the functions are private and unreachable from the public API, so no test can call them", "anchors": ["src/Common/Impl/LayoutBitmapGenerator/LayoutBitmapGenerator.cpp:LayoutBitmapGenerator::InitFragmentsIndicies", "src/Common/Impl/LayoutBitmapGenerator/LayoutBitmapGenerator.cpp:LayoutBitmapGenerator::InitFragmentsWorkspaces", "src/Common/Impl/LayoutBitmapGenerator/LayoutBitmapGenerator.cpp:LayoutBitmapGenerator::GetFragmentIntersectionCnt"]}
{"id": "C67", "title": "Distributing the geometries to fragments keeps some and copies others everywhere", "statement": "The distribution step (private, not called by Process), whenever it is defined: each geometry list is split, in order, into geometries that stay with the generator and geometries that are given away; only geometries meeting at most two fragments are given away, never more than stay; what is given away and meets the window goes to every fragment, whether it meets it or not; what does not meet the window is gone. If no geometry meets more than two fragments, the call is defined exactly for lists of even length and gives away every second one; with no fragments every second geometry is lost. It is defined whenever the last geometry of each list meets more than two fragments. Completely: a geometry is given away exactly if it meets at most two fragments and its predecessor in the list is not given away, and the call is undefined exactly if the last geometry of one of the lists is given away.", "quantifier": "every list of geometries and every fragment grid below 2^32 fragments", "why_tests_cant": "all lists; iterator invalidation and increments past the end depend on the list, and no public function reaches the step", "anchors": ["src/Common/Impl/LayoutBitmapGenerator/LayoutBitmapGenerator.cpp:LayoutBitmapGenerator::DistributeGeometries", "src/Common/Impl/LayoutBitmapGenerator/LayoutBitmapGenerator.cpp:LayoutBitmapGenerator::GetFragmentIntersectionCnt"]}
{"id": "C68", "title": "Whether a rectangle fits one fragment", "statement": "The placement step for rectangles (private, not called by Process), in exact arithmetic: for a rectangle inside the window the overload for shared pointers answers true exactly if both corners lie in the same part of the fragment grid, except that a line on the top edge is always answered false when there is more than one fragment row. For a rectangle that sticks out of the window it compares the parts the corners lie in or are nearest to; a rectangle that starts on or behind the right border is always answered false; one that ends before the left border is never answered true when there is more than one fragment column. The overload for raw pointers never answers true, and is undefined for exactly the rectangles the other one is undefined for. Before a cell size has been computed the step is undefined (division by zero converted to an index) exactly if the first corner lies right of the left or below the top border or the second corner within the columns or rows of the window; otherwise the answer is whether there is a single fragment.", "quantifier": "every rectangle inside, across or beside the window, every window and fragment grid", "why_tests_cant": "all positions including those on the dividing lines; no public function reaches the step", "anchors": ["src/Common/Impl/LayoutBitmapGenerator/LayoutBitmapGenerator.cpp:LayoutBitmapGenerator::pushRectangle"]}
{"id": "C69", "title": "A GDSII property value could not be stored even if its handler were called", "statement": "The reader never calls its PROPVALUE handler. If it did, then for every file: whenever the read is defined, every geometry read would still be well formed and every property kept would have an empty value; because the handler does not consume the value, the reader would go on inside it; and a PROPVALUE without PROPATTR before it would be undefined.", "quantifier": "every file, every history of the layout", "why_tests_cant": "all files; the handler is dead code in the program as it is", "anchors": ["src/Common/Impl/LayoutReader/ReaderImpl/GdsiiBinaryReader.cpp:LayoutReader_GDSIIbin::ReadSection_PROPVALUE", "src/Common/Impl/LayoutReader/ReaderImpl/GdsiiBinaryReader.cpp:LayoutReader_GDSIIbin::ReadSection_PROPATTR"]}
{"id": "C70", "title": "What DecodeHash and ReadFile make of every text", "statement": "For every text of fewer than 2^32 characters, on a platform whose shifter reduces 64-bit shift distances modulo 64: DecodeHash yields the matrix of the announced size, with the cells of the run-length code, if the text is framed by the two marker lines with the right checksum, its body is read as Base64, the last 62 bytes of that contain the word __PARAMETERS__ and, in their places, __SIZE__ with 24 characters that are read as 16 bytes, and __ENCODE_TYPE__ with a flag byte whose bit 1 is set, and the bytes before them are read as a Base64 text of the code. With the bit clear and a payload of the announced length the object has no columns. It reads beyond an end in exactly three cases (a body of digits only with an incomplete last group; such a payload; raw contents whose length only agrees because rows times columns wraps around). In all other cases it throws. ReadFile stores the matrix and returns true, returns false for a matrix without cells, throws, or is undefined, accordingly, and changes nothing except when it returns true. By the shift rules of the C++ standard no text at all is decoded successfully. Every hash made by the library is such a text. (The flag byte stores run lengths in bit 1 and Base64 in bit 0, but both flags are read from bit 1.)", "quantifier": "every byte string below 2^32 bytes, both signednesses of char, both shift behaviours", "why_tests_cant": "all byte strings, including hostile ones", "anchors": ["src/Common/Impl/LayoutMatrix/LayoutMatrix.cpp:LayoutMatrix::DecodeHash", "src/Common/Impl/LayoutMatrix/LayoutMatrix.cpp:LayoutMatrix::DecodeSz", "src/Common/Impl/LayoutMatrix/LayoutMatrix.cpp:LayoutMatrix::ReadFile"]}
{"id": "C71", "title": "Similar layouts give similar bitmaps, different ones different bitmaps", "statement": "Render the same layer of two layouts of rectangles with the same window and an R x C grid. If the rectangles correspond one to one and no side is moved by more than d cells, the two bitmaps differ in at most (2d+4)(R+C) cells per rectangle; Compare, in exact arithmetic, is at least one minus that number over R*C, and operator== is true as soon as 10000 times that number is at most R*C. With the sizes of the rectangles instead of the size of the bitmap, the bound is (2d+4)(w+h+4d+6) cells for a rectangle of w x h cells. Conversely, the bitmaps differ in every cell whose centre lies in a rectangle of the first layout and that is not near any rectangle of the second. This holds from the bytes of two MSK files to the result of the comparison.", "quantifier": "all pairs of lists of rectangles that start inside the window or cover it, all windows, grids, displacements, and all rounding functions for the rendering", "why_tests_cant": "it relates two runs of the whole program on all pairs of inputs, with a bound on the difference of the results", "anchors": ["src/Common/Impl/LayoutBitmapGenerator/LayoutBitmapGenerator.cpp:LayoutBitmapGenerator::Process", "src/Common/Impl/LayoutBitmapZond/LayoutBitmapZond.cpp:LayoutZond::ZondRectangle", "src/Common/Impl/BitMatrix/BitMatrix.cpp:BitMatrix::Compare"]}
{"id": "C72", "title": "Enlarging a rectangle can remove cells from the drawing", "statement": "In exact arithmetic, for two rectangles of which the second contains the first, both starting inside the window: moving the left or top side outwards never removes a cell from the drawing. A cell drawn for the smaller and not for the larger rectangle exists exactly in columns (rows) that are not the last, such that the smaller rectangle ends in the second half of the column (row) before and the larger one in its first half; such cells do disappear, so drawing is not monotone. In double arithmetic too, with any tolerance: whenever drawing the smaller rectangle returns normally, drawing the one whose left and top sides lie further out (still inside the window) returns normally and draws at least the same cells.", "quantifier": "every pair of rectangles, one containing the other, every window, grid and previous bitmap", "why_tests_cant": "it compares two runs for all pairs of rectangles, and the exception is a thin set of positions", "anchors": ["src/Common/Impl/LayoutBitmapZond/LayoutBitmapZond.cpp:LayoutZond::ZondRectangle", "src/Common/Impl/LayoutBitmapZond/LayoutBitmapZond.cpp:LayoutZond::ZondGeometry"]}
{"id": "C73", "title": "Drawing into a part of the bitmap that does not begin at row or column 0 loses rectangles", "statement": "A rasteriser whose index bounds are the R rows from i0 on and the C columns from j0 on of a bitmap (the set-up a Fragment makes, with tolerance 0) and whose window belongs to that part. In exact arithmetic a rectangle that starts inside the window turns on, besides the case that it contains all cell centres of the part, exactly the cells that a grid of i0+R by j0+C cells of that size would get, except that a rectangle reaching over a grid line and beginning before the i0-th row (j0-th column) of the part is drawn only from that row (column) on: the offset is counted twice. In double arithmetic, with any tolerance up to 1e-12, a rectangle that clearly reaches over a vertical grid line, misses some centre and begins before column j0 of the part draws nothing in the first j0 columns of the part; so if the part is at least as far from the left border as it is wide, the call returns normally and no bit changes. The same holds for rows.", "quantifier": "every part of every bitmap, every window, rectangle and previous bitmap", "why_tests_cant": "the loss depends on the offset, the window and the rectangle together, and the call reports success", "anchors": ["src/Common/Impl/LayoutBitmapZond/LayoutBitmapZond.cpp:LayoutZond::NormIndicies", "src/Common/Impl/LayoutBitmapZond/LayoutBitmapZond.cpp:LayoutZond::ZondRectangle", "src/Common/Impl/LayoutFragment/LayoutFragment.cpp:Fragment::Process"]}
{"id": "C74", "title": "Looking a layout up in a directory of stored bitmaps", "statement": "A client that reads each file of a list of names with ReadFile (catching exceptions) and compares the object with its bitmap by operator== finds, after any history of FlushFile and ReadFile calls with torn and failed writes, exactly the names under which a bitmap of the same size was last stored completely that differs from the query in at most every ten thousandth cell; missing, unreadable and damaged files do not disturb it. A layout whose rectangles correspond one to one to those of the query with no side moved by more than d cells is found if the rims (2d+4)(w+h+4d+6) of its w x h cell rectangles are together at most a ten thousandth of the bitmap; one is not found if more than a ten thousandth of the cells have their centre in a rectangle of one layout and are not near any rectangle of the other. This holds from the bytes of two MSK files to the answer.", "quantifier": "every history of calls, list of names, query bitmap, and every pair of MSK files of rectangles, windows and grids below 2^31 cells that the platform can read back", "why_tests_cant": "it composes the readers, the rendering, the file format and the comparison for all inputs and histories", "anchors": ["src/Common/Impl/LayoutMatrix/LayoutMatrix.cpp:LayoutMatrix::ReadFile", "src/Common/Impl/LayoutMatrix/LayoutMatrix.cpp:LayoutMatrix::FlushFile", "src/Common/Impl/BitMatrix/BitMatrix.cpp:BitMatrix::operator=="]}
{"id": "C75", "title": "Obtaining and releasing readers", "statement": "Over any sequence of GetReader, IsMyFormat, Read and FreeReader calls on any files that runs without undefined behaviour, GetReader never returns the same pointer twice, every pointer is released at most once and only after it was obtained, and the readers that exist are exactly those obtained and not released (a refused file leaves no reader behind). With a compiler that lets an object be deleted through its base class, GetReader is always defined and returns null exactly for the files the library does not read; FreeReader(null) does nothing; releasing a pointer a second time, or using it afterwards, is undefined although FreeReader seems to clear it. Calls other than Read leave all layouts alone; Read changes only the layout and the reader it is given (as in C42, C43); no call changes a reader it was not given. Because LayoutReader has no virtual destructor, the C++ standard leaves every sequence undefined that asks for an unsupported file or releases any reader.", "quantifier": "every sequence of calls, files, pointers and layouts", "why_tests_cant": "it is about all histories of calls; undefined behaviour and leaks do not show in the returned values", "anchors": ["src/Common/Impl/LayoutReader/LayoutReader.cpp:GetReader", "src/Common/Impl/LayoutReader/LayoutReader.cpp:FreeReader", "src/Common/Include/LayoutReader.hpp:LayoutReader"]}
{"id": "C76", "title": "A layout reflected in a falling diagonal gives the transposed bitmap", "statement": "If all shapes of a layout (rectangles, polygons, texts; no paths or references) and the window are reflected by (x, y) -> (-y, -x), Process with the numbers of rows and columns exchanged returns exactly when it does for the original, and the bitmap is the original with rows and columns exchanged; this holds in double arithmetic for every rounding that is symmetric about zero. A reflection in a vertical axis has no such effect: it can turn on cells that are not the mirror images.", "quantifier": "every layout of shapes, window, list of layers and grid below 2^31 rows and columns; every symmetric rounding", "why_tests_cant": "it relates the results for all pairs of inputs related by the reflection, rounding included", "anchors": ["src/Common/Impl/LayoutBitmapGenerator/LayoutBitmapGenerator.cpp:LayoutBitmapGenerator::Process", "src/Common/Impl/LayoutBitmapZond/LayoutBitmapZond.cpp:LayoutZond::ZondRectangle"]}
{"id": "C77", "title": "Storing a bitmap asks for memory quadratic in its rows", "statement": "Before encoding, Rle::Encode reserves as many bytes as the square of the number of rows (in size_t arithmetic), whatever the number of columns. If that request is refused, Rle::Encode, GetHash and FlushFile throw, and FlushFile has by then emptied the file of that name, so that a bitmap stored there before can no longer be read; other files are untouched. As no string holds 2^62 characters, a bitmap of 2^31 to 2^32-1 rows can never be turned into text. For every limit on requests from 400 to 2^60 bytes there is a one-column bitmap whose text is within the limit but for which GetHash throws. If requests up to the square of the rows and up to four times the cells plus 400 bytes are granted (and there are fewer than 2^59 cells), GetHash and FlushFile do what C30 and C32 say, and the text has at most two characters per cell and 300 more. The Base64 encoder makes one request, the same for the plain, PEM and MIME forms, of at most 8/3 of the input and 40 bytes, which is enough for the whole text with its line ends; if it is refused it throws. Rle::ByteEncode asks for as many bytes as its string has: refused, bad_alloc; granted, the code of C28.", "quantifier": "every bitmap that any history of calls builds, every set of granted requests, file system and name; every memory limit", "why_tests_cant": "it depends on the memory of the machine and on sizes no test uses, and it quantifies over all of them", "anchors": ["src/Common/Impl/RunLengthEncoding/RunLengthEncoding.cpp:Rle::Encode", "src/Common/Impl/LayoutMatrix/LayoutMatrix.cpp:LayoutMatrix::FlushFile", "src/Common/Impl/Base64/Base64.cpp:InCalcApproxEncodedStrLength"]}
{"id": "C78", "title": "Texts and files without enough memory", "statement": "operator! of a LayoutMatrix copies the bitmap and is true for every bitmap when the memory for the copy is missing. Whatever of these copies and of the reserve requests fail, GetHash either does what it does with enough memory or throws, so it never returns a wrong text; FlushFile, if it returns, has done what it does with enough memory, and if it throws the file is empty and all others are unchanged; ReadFile without the memory for the copy answers false for every file, good ones included, and leaves the object alone. Rle::Encode however does not report the failure: it returns the empty string, and the compression coefficient of a bitmap with cells is then infinite.", "quantifier": "every bitmap, file system, name, and every combination of failing copies and requests", "why_tests_cant": "allocation failures at every point are not reachable by tests", "anchors": ["src/Common/Include/LayoutMatrix.h:operator!", "src/Common/Impl/LayoutMatrix/LayoutMatrix.cpp:LayoutMatrix::EncodeHash", "src/Common/Impl/LayoutMatrix/LayoutMatrix.cpp:LayoutMatrix::ReadFile", "src/Common/Impl/RunLengthEncoding/RunLengthEncoding.cpp:Rle::Encode"]}
{"id": "C79", "title": "Copying a bitmap when memory runs out", "statement": "Assigning a bitmap to another object copies its rows one after the other. If every allocation succeeds, the target equals the source. If one fails, BitMatrix::operator= throws std::bad_alloc; the object still reports its old dimensions, and from some row on it holds its old bits, while the rows before it hold the source's bits as far as the source's columns reach; reading one of these rows beyond the source's bytes is undefined behaviour. If the target's outer storage has to grow, a failure changes nothing. LayoutMatrix::operator= (copy) loses the old bits instead: after a failure the object reports the dimensions of the source, reading any cell in range is undefined behaviour, and operator! is true. Moving a bitmap into a new LayoutMatrix, or a BitMatrix into a LayoutMatrix, copies inside a noexcept function, so the program ends if a block for the rows or for one of them cannot be had.", "quantifier": "every target and source bitmap, every capacity of the target's storage and every number of allocations that still succeed", "why_tests_cant": "an allocation failure in the middle of a copy is not reproducible in a unit test, and the outcome depends on which allocation fails and on the capacities the target has accumulated", "anchors": ["src/Common/Impl/Vector2D/Vector2D.cpp:operator=", "src/Common/Impl/BitMatrix/BitMatrix.cpp:BitMatrix::operator=", "src/Common/Impl/LayoutMatrix/LayoutMatrix.cpp:LayoutMatrix::operator="]}
{"id": "C80", "title": "A layout and window stretched by whole factors give the same bitmap", "statement": "If all shapes of a layout (rectangles, polygons, texts; no paths or references) and the window are stretched by whole factors k in x and l in y, Process with the same numbers of rows and columns does the same: it returns, throws or is undefined alike, with the same bitmap and printed text. In exact arithmetic this needs the fixed tolerance of 1e-13 to stay below half a unit of the original layout (2*k*width^2 < 1e13*columns, likewise for rows); in double arithmetic it holds if the sides of every rectangle to draw keep a thousandth of a cell off the borders and centre lines of cells (or lie on the window border; a rectangle sticking out at the left or top need only keep off the centres of the border cells) and cells are at least 1/256 unit. Without that condition it fails: a side on a centre line can turn on one column more in the original than in the layout three times as large.", "quantifier": "every layout of shapes, window, list of layers, grid, pair of positive whole factors and rounding", "why_tests_cant": "it relates the results of all pairs of layouts, rounding included", "anchors": ["src/Common/Impl/LayoutBitmapGenerator/LayoutBitmapGenerator.cpp:LayoutBitmapGenerator::Process", "src/Common/Impl/LayoutBitmapZond/LayoutBitmapZond.cpp:LayoutZond::ZondRectangle", "src/Common/Impl/LayoutBitmapZond/LayoutBitmapZond.cpp:LayoutZond::NormIndicies"]}
{"id": "C81", "title": "Several programs writing and reading matrix files at the same time", "statement": "FlushFile and ReadFile calls of several programs (or threads with their own objects) on shared files, cut into the file operations others can get in between (open and empty, write a piece, open, read a piece) and interleaved in any order; calls may stop half-way and disks may fill up. (1) If no call on a file overlaps with a flush of that file, no call is undefined, and the calls that have ended are, in the order in which they ended and each once, a history of a map from names to matrices (C64), with what the callers saw; a flush that never met a full disk is complete in it. (2) In any schedule, every character of a file, and every one that ReadFile decodes, is zero or the character some text stored there or flushed there has in that place; the reader's object changes only if true is returned. (3) If all flushes of a file are of matrices with the same bits, a reader gets that matrix or nothing (false, or an exception, with its object unchanged), never another matrix; and if no disk is full, the file holds exactly the text of that matrix as soon as a flush has begun and none is under way. (4) With one flush and a reader that opens the file after the flush has opened it, the reader gets the matrix or throws std::invalid_argument. (5) Overlapping calls with different matrices are not safe: two flushes can both report success and leave a file from which ReadFile returns a third matrix nobody stored, and so can a ReadFile that has begun before a flush.", "quantifier": "every number of programs and calls, every matrix within the limits of the format, every interleaving of the operations, every cutting into pieces and every point at which a call stops or a disk is full", "why_tests_cant": "the number of interleavings is unlimited, and a test neither controls nor observes where the calls of other programs get in between", "anchors": ["src/Common/Impl/LayoutMatrix/LayoutMatrix.cpp:LayoutMatrix::FlushFile", "src/Common/Impl/LayoutMatrix/LayoutMatrix.cpp:LayoutMatrix::ReadFile"]}
{"id": "C82", "title": "The exponent range of double never matters", "statement": "The results of the library do not depend on overflow, underflow or subnormal numbers of double. Take any arithmetic that rounds results of size 0 or between 2^-1022 and 2^1023 to nearest (ties to even) and does anything else with all other results: (1) any sequence of Init, SetLayerArray, Process calls and direct changes of the bitmap on one LayoutBitmapGenerator, with any int32_t coordinates and size_t sizes, has the same outcomes as with unlimited exponents; (2) so have the rasteriser called directly, with step sizes and a tolerance that are zero, infinite, NaN or between 2^-200 and 2^200 in size, Fragment::Process, and (with such step sizes) the division of the work among fragments; (3) OneRatio, ZeroRatio, Compare, == and != of any matrices; (4) the compression coefficients; (5) Normalize_DOUBLE on any eight bytes and reading any GDSII file; (6) DeNormalize_DOUBLE for every value up to 2^700 in size. IEEE binary64 with its subnormal numbers is such an arithmetic.", "quantifier": "every such arithmetic, every sequence of calls, every matrix, every byte string and every number in the stated range", "why_tests_cant": "a test runs few inputs on one machine; intermediate results near the limits of the exponent are not visible outside", "anchors": ["src/Common/Impl/LayoutBitmapGenerator/LayoutBitmapGenerator.cpp:LayoutBitmapGenerator::Process", "src/Common/Impl/LayoutBitmapZond/LayoutBitmapZond.cpp:LayoutZond::ZondRectangle", "src/Common/Impl/BitMatrix/BitMatrix.cpp:BitMatrix::CalcRatio", "src/Common/Impl/LayoutReader/Helpers/GDSIIHelperFunctions.cpp:Normalize_DOUBLE"]}
{"id": "C83", "title": "Reading an MSK file when memory runs out", "statement": "For MskReader::Read into an empty layout, on any file whose lines all have a meaning, with any set of failing memory requests: (1) no exception leaves Read, whatever the file and the state. (2) If a request before the first line fails, or the object for a section of a line that is reached cannot be made, or the library cannot list its element, Read returns false; the layout keeps its libraries, every object that was there is still there unchanged, nothing new stays in memory except one Text for every readable title read before, and the reader can be used again. (3) If only the layout cannot list the finished library, the element is deleted twice: undefined behaviour; the same if failures leave no box for the element. (4) Otherwise Read returns true: boxes whose coordinates or layer entry could not be stored are missing silently; a box the element could not list is deleted while its layer keeps pointing to it; a failure while a line is fetched drops that line and all following ones silently; everything else is delivered in file order, with the smallest enclosing box. (5) The layout can then be destroyed, and exactly one Text per readable title leaks - also without any failure. (6) After a successful Read, a call on another layout that runs out of memory while opening the file or making its library is undefined; when making its element it returns false and has deleted the element of the first layout, which cannot be destroyed any more. (7) With a null layout Read returns false and changes nothing (it closes the stream). (8) If the stream was left open because an empty file was offered before (C50), Read sees no line of the file meant; with enough memory and an empty layout that is undefined behaviour. (9) Into a layout whose first library has an element with geometries, the library is added at the end just so; the box computed is again that of the old first element, the new element keeps the box (-1,-1),(-1,-1), and an element without a box is then no problem.", "quantifier": "every file whose lines have a meaning (and, for (1), every file), every set of failing memory requests, every earlier state of memory", "why_tests_cant": "a test cannot make each allocation of a call fail in every combination, and dangling pointers, leaks and double deletes are not visible in results", "anchors": ["src/Common/Impl/LayoutReader/ReaderImpl/MskReader.cpp:MskReader::Read", "src/Common/Impl/LayoutReader/ReaderImpl/MskReader.cpp:MskReader::ReadSectionRectangle", "src/Common/Impl/LayoutReader/ReaderImpl/MskReader.cpp:MskReader::ReadSectionBoundingBox", "src/Common/Impl/LayoutReader/ReaderImpl/MskReader.cpp:MskReader::ReadSectionTitle", "src/Common/Include/LayoutData.hpp:Element::~Element"]}
{"id": "C84", "title": "File names that are not plain ASCII", "statement": "LayoutReader's GetReader takes a wide name; the MSK reader narrows it character by character to look for the file but converts it to UTF-8 to name the library and the element. So: (1) the name looked for is the file's UTF-8 name exactly if every character is ASCII. (2) For ASCII names a reader is given exactly for names ending in a word character and .msk of files whose text begins with VERSION. (3) A file whose name has a character beyond ASCII is not found under its name, and is found under the longer name whose characters are the bytes of its UTF-8 name. (4) Two different names whose characters agree modulo 256 give readers for the same content, while the libraries they make are named differently. (5) For every name dir/base.ext that gets a reader the element is named base and the library dir/base.ext, both in UTF-8.", "quantifier": "every text as a file name, every file system, every content", "why_tests_cant": "the set of names is infinite, and what goes wrong depends on single characters; a test with a handful of names says nothing about the rest", "anchors": ["src/Common/Impl/LayoutReader/ReaderImpl/MskReader.cpp:MskReader::IsMyFormat", "src/Common/Impl/LayoutReader/ReaderImpl/MskReader.cpp:MskReader::Read", "src/Common/Impl/LayoutReader/ReaderImpl/MskReader.cpp:MskReader::GetElemName", "src/Common/Impl/LayoutReader/ReaderImpl/MskReader.cpp:WcsStrToUtf8"]}
{"id": "C85", "title": "A rasteriser without a cell size", "statement": "SetDeltas accepts zero, and a new LayoutZond has cell size zero. Then ZondGeometry, for a rectangle: if the rectangle covers the workspace rectangle, every cell between the bound indices (and inside the bitmap) is set and no other; otherwise invalid_argument is thrown and the bitmap is unchanged, provided the four coordinate differences are ints - if one is not, the behaviour is undefined. For a LayoutZond as constructed, with any finite tolerance: cell (0,0) alone is set if the point (0,0) lies in the rectangle; else invalid_argument, or undefined if an ordinate of the rectangle is INT_MIN. With a tolerance that is infinite or NaN, which neither the constructor nor SetEps refuses, every rectangle is refused (or undefined, as before), even one that covers the workspace.", "quantifier": "every rectangle with int coordinates, every workspace, every bound indices, every tolerance, every bitmap, every rounding mode that is monotone and accurate", "why_tests_cant": "quotients by zero give infinities and NaN whose comparisons decide the path; only a case analysis of all of them shows that none slips through", "anchors": ["src/Common/Impl/LayoutBitmapZond/LayoutBitmapZond.cpp:LayoutZond::ZondRectangle", "src/Common/Impl/LayoutBitmapZond/LayoutBitmapZond.cpp:LayoutZond::NormIndicies", "src/Common/Impl/LayoutBitmapZond/LayoutBitmapZond.cpp:LayoutZond::SetDeltas", "src/Common/Include/LayoutBitmapZond.h:LayoutZond::LayoutZond"]}
{"id": "C86", "title": "Unchecked access for derived classes", "statement": "For every matrix the public API can produce: UnsafeGet returns what Get returns wherever Get returns; UnsafeSet leaves the matrix exactly as Set does wherever Set succeeds; UnsafeSetByte(i,j,v) gives the eight bits of byte j of row i the value v, exactly as SetByte with 0xFF or 0, and changes no other cell. In the unused bits of the last byte of a row, where Get and Set throw, UnsafeGet returns a value and UnsafeSet succeeds without changing any cell. Everywhere else all three are undefined.", "quantifier": "every matrix reachable through the API, every pair of indices, every value", "why_tests_cant": "undefined accesses are not visible in a test, and the border between the last column, the unused bits and the outside depends on the number of columns modulo 8", "anchors": ["src/Common/Impl/BitMatrix/BitMatrix.cpp:BitMatrix::UnsafeGet", "src/Common/Impl/BitMatrix/BitMatrix.cpp:BitMatrix::UnsafeSet", "src/Common/Impl/BitMatrix/BitMatrix.cpp:BitMatrix::UnsafeSetByte"]}
{"id": "C87", "title": "Cutting a rectangle in two", "statement": "Drawing a rectangle and drawing instead its two parts on either side of a vertical or horizontal cut both always succeed, and the bitmaps they give agree except in at most one column (row) of the rectangle, named exactly: a column is drawn only for the parts if the rectangle begins before the previous column, the cut is in the second half of the previous column and the rectangle ends in the first half of this one; it is drawn only for the whole if the cut and the end are in the first and second half of the previous column. If the right (lower) part is at least one cell wide (high), the two bitmaps are equal. In double arithmetic the same holds for sides and cuts clear of the lines of the grid. Accordingly, cutting a rectangle of an MSK file this way leaves the bitmap of its layer unchanged.", "quantifier": "every rasteriser set up for a grid, every rectangle in the workspace, every position of the cut, every bitmap drawn on", "why_tests_cant": "layout editors cut rectangles freely; whether the bitmap depends on the cut depends on the fractions of the three positions, which no set of examples covers", "anchors": ["src/Common/Impl/LayoutBitmapZond/LayoutBitmapZond.cpp:LayoutZond::ZondRectangle", "src/Common/Impl/LayoutBitmapZond/LayoutBitmapZond.cpp:LayoutZond::NormIndicies"]}
{"id": "C88", "title": "Order, repetition and invisible geometries do not matter", "statement": "If two layouts, processed for the same window and bitmap size (by any generators, after any histories), have the same set of geometries to draw - in whatever order, however often repeated, and whatever else lies outside the window, on other layers or later in the layer list - and the first Process returns, then the second does not throw, and when it returns the text and the bitmap are the same, including the unused bits. In particular two MSK files whose rectangles on the requested layers, as far as they meet the window, are the same set give equal bitmaps.", "quantifier": "every pair of layouts, histories, windows, sizes and layer lists; every pair of files of rectangles", "why_tests_cant": "the order of drawing is an input of the algorithm; that the result does not depend on it (nor on duplicates or hidden shapes) is a statement about all permutations of all layouts", "anchors": ["src/Common/Impl/LayoutBitmapGenerator/LayoutBitmapGenerator.cpp:Process", "src/Common/Impl/LayoutBitmapZond/LayoutBitmapZond.cpp:LayoutZond::ZondGeometry"]}
{"id": "C89", "title": "The bitmap of a union is the union of the bitmaps", "statement": "Layouts processed for the same window and bitmap size (any generators, any histories): if the geometries to draw of one layout are those of two others together and Process returns for these two, it does not throw for the first, and when it returns a cell is on exactly if it is on for one of the two. If the geometries to draw of one layout are among those of another, Process does not throw for the smaller one if it returns for the larger one, and no cell is on for the smaller that is off for the larger: adding shapes never removes cells. For two bitmaps of at most 2^53 cells of which one has at least the cells of the other on, Compare in exact arithmetic is one minus the increase of OneRatio, in either order, and XOR shows exactly the added cells. An MSK file with the rectangles of two other files gives, layer by layer, the union of their bitmaps.", "quantifier": "every three layouts, histories, windows, sizes and layer lists; every three files of rectangles; every two bitmaps of equal size", "why_tests_cant": "the claim relates three runs over arbitrary layouts; a rasteriser that clears or toggles cells of overlapping shapes can pass every test with disjoint ones", "anchors": ["src/Common/Impl/LayoutBitmapGenerator/LayoutBitmapGenerator.cpp:LayoutBitmapGenerator::Process", "src/Common/Impl/LayoutBitmapZond/LayoutBitmapZond.cpp:LayoutZond::ZondGeometry", "src/Common/Impl/BitMatrix/BitMatrix.cpp:BitMatrix::Compare"]}
{"id": "C90", "title": "Two windows on one grid of cells", "statement": "Draw one rectangle that does not start to the left of or above a window, with a tolerance below half a cell and corners within the range of int, in this window and in a larger one whose cells have the same size and of whose whole cells the smaller window is made. Both drawings return, every cell that is on in the larger window is on in the smaller one, and the cells that are on only in the smaller one are exactly those of its last row or column beyond which the larger window goes on, where the rectangle begins before that cell and ends in its first half (by more than the tolerance before its centre); in double arithmetic the same holds for rectangles whose sides are clear of the grid lines. A rectangle that starts in the larger window, but to the left of or above the smaller one, and misses the centre of some cell of the smaller one, is refused with invalid_argument in the smaller window and drawn in the larger one, so a layout cannot in general be drawn piece by piece. For an MSK file each of whose rectangles, in either window it meets, covers the window or starts inside it with clear sides, the two bitmaps agree in all cells of the smaller window except those of its first and last row and column.", "quantifier": "every pair of aligned windows and grid sizes, every rectangle, tolerance and prior bitmap; every file of rectangles", "why_tests_cant": "the claim relates two runs with different windows for all windows, grids and rectangles; tests with one window cannot show how its border changes the result", "anchors": ["src/Common/Impl/LayoutBitmapZond/LayoutBitmapZond.cpp:LayoutZond::NormIndicies", "src/Common/Impl/LayoutBitmapZond/LayoutBitmapZond.cpp:LayoutZond::ZondGeometry", "src/Common/Impl/LayoutBitmapGenerator/LayoutBitmapGenerator.cpp:LayoutBitmapGenerator::Process"]}
{"id": "C91", "title": "OneRatio is the covered area, Compare the area of the difference, up to the rims", "statement": "A bitmap that shows rectangles (C62), overlapping or not, in a window of W by H units and R rows by C columns (R*C at most 2^53) has an OneRatio that differs from the fraction of the window area the rectangles cover together by at most the sum over the rectangles of the cells along their rims divided by R*C; in double the result is that number rounded. The covered area counts unit squares: one rectangle inside the window covers w*h/(W*H), and rectangles that do not overlap cover the sum. With at least n rows and n columns the error is at most a constant of the layout and the window divided by n, plus 2^-53, so finer grids give the area as precisely as wanted. Compare of two such bitmaps differs from one minus the fraction of the window covered by exactly one of the two lists by at most the rims of both (in double: a constant divided by n plus 2^-52). The same holds from the bytes of MSK files: read, Init, Process, OneRatio or Compare, where only the rims of the rectangles of the layer that meet the window count. The same layout drawn with two grids of at least n and n' rows and columns has ratios that differ by at most (1/n+1/n') times that constant plus 2^-52.", "quantifier": "every window, grid, list of rectangles of non-negative size, bitmap showing them, n, and every plain MSK file (two for Compare) and layer whose rectangles start inside the window or cover it", "why_tests_cant": "Needs every layout and every grid, and convergence for all n; tests compare a few numbers.", "anchors": ["src/Common/Impl/BitMatrix/BitMatrix.cpp:BitMatrix::OneRatio", "src/Common/Impl/BitMatrix/BitMatrix.cpp:BitMatrix::Compare", "src/Common/Impl/LayoutBitmapZond/LayoutBitmapZond.cpp:LayoutZond::ZondGeometry", "src/Common/Impl/LayoutBitmapGenerator/LayoutBitmapGenerator.cpp:LayoutBitmapGenerator::Process"]}
{"id": "C92", "title": "The area in which two layouts differ decides whether one is found when the other is stored", "statement": "Two bitmaps of R x C cells that show two lists of rectangles in the same window (C62) are equal by operator== if the area covered by exactly one of the lists, as a fraction of the window, plus the cells along the rims of all rectangles divided by R*C, is at most 1/10000, and unequal if that area minus the rims is more than 1/10000. So unless the area is exactly 1/10000, every grid with at least n rows and columns, n large enough for the layouts, gives the verdict of the area. The differing area is at least the difference of the covered areas and at most their sum. From the bytes of two MSK files to the answer: read both, render a layer, store the first bitmap with FlushFile, look the second up: found or not found by the same criterion. A search for the largest Compare prefers the layout that differs from the query in the smaller area: a difference of the areas of more than the rims gives a strictly larger value (in double, up to 2^50 cells).", "quantifier": "every pair of lists of rectangles, window, grid (R*C at most 2^38, below 2^31 for stored bitmaps), pair of plain MSK files and layer", "why_tests_cant": "Quantifies over all pairs of layouts and all grids; a test compares a few.", "anchors": ["src/Common/Impl/BitMatrix/BitMatrix.cpp:BitMatrix::operator==", "src/Common/Impl/BitMatrix/BitMatrix.cpp:BitMatrix::Compare", "src/Common/Impl/LayoutMatrix/LayoutMatrix.cpp:LayoutMatrix::FlushFile", "src/Common/Impl/LayoutMatrix/LayoutMatrix.cpp:LayoutMatrix::ReadFile", "src/Common/Impl/LayoutBitmapGenerator/LayoutBitmapGenerator.cpp:LayoutBitmapGenerator::Process"]}
{"id": "C93", "title": "The matrix a generator hands out is its own, and copies of a generator share it", "statement": "GetMatrix returns the generator's own matrix, not a picture of it: the matrix behind the returned pointer is at every later moment the one the generator shows, and is overwritten (new size, new cells) by the next Process that returns. Changes the client makes through the pointer are visible to everyone who holds it but do not influence the next Process. A copy of a generator (copied, assigned or moved) shows the same matrix as the original from then on. Generators constructed separately do not disturb each other as long as they are neither copied nor asked for their matrix, and the end of a generator's life changes nothing behind the pointers it handed out. A result can be kept by destroying the generator or assigning another one to it: then the matrix behind the pointer never changes again unless the client changes it through that pointer; and a generator to which a new one has been assigned is as good as new, Init works on it again.", "quantifier": "every program of constructions, copies, destructions, Init, SetLayerArray, Process, GetMatrix calls and changes through returned pointers, in every order, with any number of generators and pointer variables, whether the calls return or throw", "why_tests_cant": "which objects share a matrix depends on the whole history of copies and pointers; a test sees a few aliasing patterns only", "anchors": ["src/Common/Include/LayoutBitmapGenerator.h:LayoutBitmapGenerator", "src/Common/Impl/LayoutBitmapGenerator/LayoutBitmapGenerator.cpp:LayoutBitmapGenerator::GetMatrix", "src/Common/Impl/LayoutBitmapGenerator/LayoutBitmapGenerator.cpp:LayoutBitmapGenerator::Process", "src/Common/Include/LayoutMatrix.h:LayoutMatrixPtr"]}
{"id": "C94", "title": "A finer grid shows the same layout: every cell agrees with the cell in its middle, except just past right and bottom sides", "statement": "Drawing a window with an odd number of times as many rows and columns, (2p+1)R by (2q+1)C instead of R by C, splits each cell (i,j) into (2p+1)(2q+1) cells, of which the middle one, row (2p+1)i+p and column (2q+1)j+q, has the same centre. For a rectangle that starts inside the window both drawings return, and cell and middle cell are both lit or both left alone unless the right or the bottom side of the rectangle is within one cell before their common centre (there they do differ: the overshoot of C39 is one cell of the respective grid). In exact arithmetic this holds for sides anywhere, in double for sides clear of the lines of both grids. Bitmaps that show a list of rectangles (C62), however they were made, agree in cell and middle cell unless some rectangle comes near the cell without containing its centre. From the bytes of an MSK file, both grids: the same.", "quantifier": "every window, pair of sizes R, C, factors 2p+1 and 2q+1, rectangle, tolerance, previous contents of the bitmaps, list of rectangles, plain MSK file, layer and cell", "why_tests_cant": "Relates two drawings for all grids and rectangles; a test compares a few pairs of sizes, and the exceptions depend on the position of every side.", "anchors": ["src/Common/Impl/LayoutBitmapZond/LayoutBitmapZond.cpp:LayoutZond::NormIndicies", "src/Common/Impl/LayoutBitmapZond/LayoutBitmapZond.cpp:LayoutZond::ZondGeometry", "src/Common/Impl/LayoutBitmapGenerator/LayoutBitmapGenerator.cpp:LayoutBitmapGenerator::Process"]}
{"id": "C95", "title": "The stored text of a picture grows with its edges, not with its area", "statement": "Read a bitmap row by row (each row continuing the one above) and count the places where a cell differs from the one before. With k such changes Rle::Encode gives at least k+1 and at most k+1+cells/127 bytes, and GetHash a text of at most 2(k + cells/127) + 300 and at least k characters; its length is a function of the number of bytes alone (70 characters and two layers of Base64 in lines of 76). A picture that is a union of n boxes of cells has at most 2n changes per row, however large the boxes are. Whatever the rounding, every geometry that Process draws contributes one box of cells or nothing; so if at most n geometries are selected, the text of an R by C bitmap has at most 4nR + 2RC/127 + 300 characters. From the bytes of an MSK file: the same for every layer, with n the number of its rectangles.", "quantifier": "every bitmap with cells; every generator history, layout, window, size (up to 2^31-1) and rounding; every plain MSK file and list of layers", "why_tests_cant": "A bound on the length for all pictures and layouts; tests see single lengths.", "anchors": ["src/Common/Impl/RunLengthEncoding/RunLengthEncoding.cpp:Rle::Encode", "src/Common/Impl/LayoutMatrix/LayoutMatrix.cpp:LayoutMatrix::EncodeHash", "src/Common/Impl/LayoutMatrix/LayoutMatrix.cpp:LayoutMatrix::GetHash", "src/Common/Impl/LayoutBitmapZond/LayoutBitmapZond.cpp:LayoutZond::ZondRectangle", "src/Common/Impl/LayoutBitmapGenerator/LayoutBitmapGenerator.cpp:LayoutBitmapGenerator::Process"]}
{"id": "C96", "title": "A text of 160 characters can make the reader ask for any amount of memory", "statement": "DecodeHash believes the sizes written in the text. On a machine with masked shifts, for any numbers r and c below 2^32 (where char is signed: numbers without a byte of 0x80 or more) there is a text of 160 characters that makes DecodeHash request r rows of ceil(c/8) bytes: if they are granted the result is a dark r by c matrix and ReadFile on a file with this text answers true and replaces its object by it; if they are refused DecodeHash returns the empty matrix, and ReadFile answers false and leaves its object alone. Where char is signed, the library's own text of a bitmap with a dimension byte of 0x80 or more (128 columns, say) announces at least 2^31 rows; if they are refused, ReadFile answers false.", "quantifier": "every pair of sizes below 2^32; every outcome of the row allocations; every file system and previous object; every bitmap whose sizes have such a byte", "why_tests_cant": "The memory requested is not bounded by the length of the input; a test would have to allocate gigabytes.", "anchors": ["src/Common/Impl/LayoutMatrix/LayoutMatrix.cpp:LayoutMatrix::DecodeHash", "src/Common/Impl/LayoutMatrix/LayoutMatrix.cpp:LayoutMatrix::ReadFile", "src/Common/Impl/LayoutMatrix/LayoutMatrix.cpp:LayoutMatrix::DecodeSz", "src/Common/Impl/RunLengthEncoding/RunLengthEncoding.cpp:Rle::DecodeMatrix"]}
{"id": "C97", "title": "A text of n characters carries at most 72n lit cells: large bitmaps from small files are all equal", "statement": "Whatever text DecodeHash accepts, whoever wrote it and whatever sizes it announces: with k = (9*length - 1374)/16, only the first 127k cells (row by row) of the bitmap can be on, and reading it row by row the cells change at most k times. So the number of lit cells is at most 72*length and OneRatio at most 72*length/cells. Two bitmaps of one size read from texts (or files) of at most n characters differ in at most 72n cells; if they have at least 720000*n cells (at most 2^53) they are equal by ==, whatever the texts say.", "quantifier": "every text below 4 GiB, every platform, every announced size; every pair of texts and files", "why_tests_cant": "A bound over all texts, including those no encoder produces; the bitmaps concerned are far too large for a test.", "anchors": ["src/Common/Impl/LayoutMatrix/LayoutMatrix.cpp:LayoutMatrix::DecodeHash", "src/Common/Impl/LayoutMatrix/LayoutMatrix.cpp:LayoutMatrix::ReadFile", "src/Common/Impl/RunLengthEncoding/RunLengthEncoding.cpp:Rle::DecodeMatrix", "src/Common/Impl/BitMatrix/BitMatrix.cpp:BitMatrix::operator=="]}
{"id": "C98", "title": "Reading a bitmap file and storing it again gives a normal form, which may be longer without bound", "statement": "When ReadFile has read a file (of less than 4 GiB, by whatever program it was written) and FlushFile stores the bitmap completely, the stored text has at least cells/127 characters; it is read as the same bitmap (where char is signed: if no byte of the sizes is 0x80 or more), and storing that bitmap stores the same text again. Two files that were read give, stored again, equal texts exactly if their bitmaps have the same sizes and bits. For any sizes r, c below 2^32 (signed char: without bytes from 0x80 on) there is a text of 160 characters such that a file with it is read, and storing its bitmap either gives at least r*c/127 characters or throws (runtime_error, or invalid_argument for 2^31 cells and more) and leaves an empty file - also if it was the same file.", "quantifier": "every file system, file content, name, previous object; every pair of sizes", "why_tests_cant": "Ranges over all texts any program may have written, and over sizes whose bitmaps do not fit into memory.", "anchors": ["src/Common/Impl/LayoutMatrix/LayoutMatrix.cpp:LayoutMatrix::ReadFile", "src/Common/Impl/LayoutMatrix/LayoutMatrix.cpp:LayoutMatrix::FlushFile", "src/Common/Impl/LayoutMatrix/LayoutMatrix.cpp:LayoutMatrix::EncodeHash", "src/Common/Impl/LayoutMatrix/LayoutMatrix.cpp:LayoutMatrix::DecodeHash"]}
{"id": "C99", "title": "How large a flattened reference is, and how it depends on the offset", "statement": "Whenever SplitSref returns, the number of geometries it returns is the one given by counting: a polygon or rectangle counts one, a path one per segment, a reference what its element counts, anything else nothing (such a count exists on every acyclic layout, and all counts agree on a reference for which the call returns). If no element holds more than w geometries, no path has more than p segments and references go at most k levels down, the result has at most p*w^(k+1) geometries. No polynomial bound holds: for every k a layout of k+1 elements with 2k+1 geometries in all makes the call return one rectangle 2^k times. A different offset moves the result and changes nothing else.", "quantifier": "every element graph, reference and offset; every k", "why_tests_cant": "The size is exponential in the nesting depth, which is unbounded.", "anchors": ["src/Common/Impl/LayoutConverter/LayoutConverter.cpp:GeometryConverter::SplitSref"]}
{"id": "C100", "title": "Drawing a layout with references and drawing it flattened", "statement": "Let Process return for a layout. Replace, in the layers, each reference whose own box touches the window by the list SplitSref returns for it and delete the other references: Process returns for the new layout (any generator, any history, same window, size and layer list) with the same text and bitmap. Conversely, if every reference that touches can be expanded and Process returns for the flattened layout, it returns the same for the original. If instead every reference is replaced by what it stands for, no cell that was on is off - but cells may come on, since the box stored in the reference decides whether it is drawn: if all references have the box (-1,-1) they are constructed with and the window does not contain that point, the bitmap is that of the layout without references. For every k there is a layout of 2k+2 geometries for which Process gives the bitmap of a single rectangle after listing that rectangle 2^k times.", "quantifier": "every layout, element graph, generator history, window, size and layer list; every k", "why_tests_cant": "Relates two runs over arbitrary layouts with unbounded nesting.", "anchors": ["src/Common/Impl/LayoutBitmapGenerator/LayoutBitmapGenerator.cpp:LayoutBitmapGenerator::ProcessGeometries", "src/Common/Impl/LayoutConverter/LayoutConverter.cpp:GeometryConverter::SplitSref"]}
{"id": "C101", "title": "The points of a path are never drawn", "statement": "Let Process return for a layout. Then it returns, with the same text and bitmap (any generator, any history, same window, size and layer list), for the layout in which every path is replaced by a rectangle of size zero at the origin - or by nothing, if the path has one point or its stored box does not touch the window; if the window does not contain the origin, for the layout without its paths; and for every layout in which the points, widths and other attributes of paths were changed, but not their boxes and layers nor whether they have at least two points, as long as the changed paths can be converted at all.", "quantifier": "every layout, element graph, generator history, window, size and layer list; every change of paths", "why_tests_cant": "Relates two runs over arbitrary layouts; a test that compares one drawn path with the output would have to know that the path is lost.", "anchors": ["src/Common/Impl/LayoutBitmapGenerator/LayoutBitmapGenerator.cpp:LayoutBitmapGenerator::ProcessGeometries", "src/Common/Impl/LayoutConverter/LayoutConverter.cpp:GeometryConverter::PathToRectList"]}
{"id": "C102", "title": "Only rectangles are seen", "statement": "Let Process return for a layout. Replace in its layers every geometry by the rectangles seen of it: a rectangle by itself, a path (two points or more, box touching the window) by a rectangle of size zero at the origin, a reference (box touching the window) by the rectangles among what SplitSref returns for it, everything else - polygons, texts, other paths and references - by nothing. Then Process returns for the new layout, which holds rectangles only (any generator, any history, same window, size and layer list), with the same text and the same bitmap. More generally, if two layouts have the same rectangles to draw, whatever polygons they have besides, and the first Process returns, the second does not throw, and when it returns text and bitmap are the same.", "quantifier": "every layout, element graph, generator history, window, size and layer list", "why_tests_cant": "A normal form for all inputs: relates two runs over arbitrary layouts.", "anchors": ["src/Common/Impl/LayoutBitmapGenerator/LayoutBitmapGenerator.cpp:LayoutBitmapGenerator::ProcessGeometries", "src/Common/Impl/LayoutBitmapZond/LayoutBitmapZond.cpp:LayoutZond::ZondPolygon"]}
{"id": "C103", "title": "Asking for several layers", "statement": "Two generators ready for the same layout, window and size whose requests agree, in every library, on the first requested layer have the same outcome of Process: the same text and bitmap, the same exception, or undefined behaviour for both. So in a layout with a single library, asking for any layers has the outcome of asking for just the one of them that comes first in the library; asking for a further layer that comes before the one shown takes everything shown away and shows the new one alone. A request that names no layer of any library makes Process return a dark bitmap.", "quantifier": "every layout without restriction on its contents, every request, generator history, window and size", "why_tests_cant": "Relates two runs over arbitrary layouts and requests.", "anchors": ["src/Common/Impl/LayoutBitmapGenerator/LayoutBitmapGenerator.cpp:LayoutBitmapGenerator::InitGeometryItems", "src/Common/Impl/LayoutBitmapGenerator/LayoutBitmapGenerator.cpp:LayoutBitmapGenerator::SetLayerArray"]}
{"id": "C104", "title": "Running out of memory while collecting", "statement": "If memory runs out while Process collects the geometries to draw, Process throws bad_alloc and the bitmap is dark and has the requested size: the previous picture is gone. With any amount of memory Process either does that or ends exactly as with enough memory. Nothing else is lost: the generator stays ready for the same layout, window and layers, a later Process at any size has the outcome it would have on a generator that never ran out, and a second Init is still refused. A call that returns with some amount of memory returns with every larger amount and the same result, for every call there is a finite amount that is enough, and for one layer of rectangles and polygons it is one step for each of them that touches the window, no fewer.", "quantifier": "every generator history in which any number of Process calls ran out of memory at any point of the collection, every layout, request, window and size", "why_tests_cant": "Ranges over every point at which memory may run out and over histories with any number of such failures.", "anchors": ["src/Common/Impl/LayoutBitmapGenerator/LayoutBitmapGenerator.cpp:LayoutBitmapGenerator::Process", "src/Common/Impl/LayoutBitmapGenerator/LayoutBitmapGenerator.cpp:LayoutBitmapGenerator::ProcessGeometries", "src/Common/Impl/LayoutBitmapGenerator/LayoutBitmapGenerator.cpp:LayoutBitmapGenerator::InitGeometryItems"]}
{"id": "C105", "title": "Drawing without a matrix", "statement": "When a null matrix pointer is passed to the rasteriser, ZondGeometry and the shared-pointer ZondRectangle return exactly for the geometries that leave every matrix unchanged, throw exactly what they throw on every matrix, and are undefined exactly when on some matrix the same call is undefined or lights a cell; ZondPolygon always returns. Trying the call on the one matrix that reaches exactly to the bound indices settles it: if that stays dark, the null pointer is safe.", "quantifier": "every geometry (or none), every rasteriser with bound indices below 2^64 - 1, every rounding of double operations, every matrix", "why_tests_cant": "Compares an undefined call with the calls on all matrices.", "anchors": ["src/Common/Impl/LayoutBitmapZond/LayoutBitmapZond.cpp:LayoutZond::ZondGeometry", "src/Common/Impl/LayoutBitmapZond/LayoutBitmapZond.cpp:LayoutZond::ZondRectangle", "src/Common/Impl/LayoutBitmapZond/LayoutBitmapZond.cpp:LayoutZond::ZondPolygon"]}
{"id": "C106", "title": "Assigning a generator when memory runs out", "statement": "The implicit copy assignment of LayoutBitmapGenerator, old = src, may throw while copying the layers, the fragments or one of the lists of geometries. Whatever old was used for before: if src is ready to draw and the assignment failed after the layers, GetMatrix of old gives the matrix of src and Process on old has, at every size, the outcome it has on src; if it failed at the layers, old keeps its own matrix but has the layout and window of src, and after SetLayerArray Process draws what a generator ready for that layout, window and layers draws. Init on the half-assigned object is accepted exactly when old accepts it (failure at the layers) or src does (failure at a list of geometries).", "quantifier": "every history of calls of the target, every ready source, every point of the failure and every content the member being copied is left with, every memory, size and rounding", "why_tests_cant": "Ranges over histories of calls and over the states a failed copy leaves behind.", "anchors": ["src/Common/Include/LayoutBitmapGenerator.h:LayoutBitmapGenerator", "src/Common/Impl/LayoutBitmapGenerator/LayoutBitmapGenerator.cpp:LayoutBitmapGenerator::Process", "src/Common/Impl/LayoutBitmapGenerator/LayoutBitmapGenerator.cpp:LayoutBitmapGenerator::Init"]}
