import Verif.Spec.FlGrammar
/-!
# Facts about the tables of the parser

For each state the rules that may be in progress there, with how much of them has been read, and that the tables agree with that.
-/

namespace Bob.Parse

/-- Rules in progress, as index into `grammar` and number of parts read. -/
def items : Arr (List (Nat × Nat)) :=
  .node 168 (.node 84 (.node 42 (.node 21 (.node 10 (.node 5 (.node 2 (.node 1 (.leaf [])
  (.leaf []))
  (.node 3 (.leaf [(9, 1), (96, 1), (97, 1), (98, 1), (99, 1)])
  (.node 4 (.leaf [(8, 1), (9, 1), (96, 1), (97, 1), (98, 1), (99, 1)])
  (.leaf [(8, 1), (9, 1), (96, 1), (97, 1), (98, 1), (99, 1)]))))
  (.node 7 (.node 6 (.leaf [(9, 1), (96, 1), (97, 1), (98, 1), (99, 1)])
  (.leaf [(2, 1), (9, 2)]))
  (.node 8 (.leaf [(2, 1), (9, 2)])
  (.node 9 (.leaf [(2, 1), (2, 2)])
  (.leaf [(2, 1), (9, 2)])))))
  (.node 15 (.node 12 (.node 11 (.leaf [(8, 1), (9, 1)])
  (.leaf [(1, 1), (2, 1)]))
  (.node 13 (.leaf [(2, 1), (2, 2)])
  (.node 14 (.leaf [(8, 2), (96, 2)])
  (.leaf [(8, 2), (96, 2)]))))
  (.node 18 (.node 16 (.leaf [(48, 1), (49, 1)])
  (.node 17 (.leaf [(98, 3), (110, 1)])
  (.leaf [(53, 2), (54, 2)])))
  (.node 19 (.leaf [(96, 1), (97, 1), (98, 1), (99, 1)])
  (.node 20 (.leaf [(99, 4), (110, 1)])
  (.leaf [(99, 4), (110, 1)]))))))
  (.node 31 (.node 26 (.node 23 (.node 22 (.leaf [(96, 1), (97, 1), (98, 1), (99, 1)])
  (.leaf [(98, 3), (110, 1)]))
  (.node 24 (.leaf [(53, 2), (54, 2)])
  (.node 25 (.leaf [(89, 4), (108, 1)])
  (.leaf [(93, 4), (94, 4)]))))
  (.node 28 (.node 27 (.leaf [(90, 2), (91, 2), (92, 2), (93, 2), (94, 2)])
  (.leaf [(87, 3), (108, 1)]))
  (.node 29 (.leaf [(86, 1), (87, 1), (88, 1), (89, 1)])
  (.node 30 (.leaf [(66, 2), (108, 1)])
  (.leaf [(110, 1)])))))
  (.node 36 (.node 33 (.node 32 (.leaf [(91, 3), (92, 3)])
  (.leaf [(90, 2), (91, 2), (92, 2), (93, 2), (94, 2)]))
  (.node 34 (.leaf [(86, 1), (87, 1), (88, 1), (89, 1)])
  (.node 35 (.leaf [(42, 3)])
  (.leaf [(91, 3), (92, 3)]))))
  (.node 39 (.node 37 (.leaf [(89, 4), (108, 1)])
  (.node 38 (.leaf [(93, 4), (94, 4)])
  (.leaf [(68, 3), (108, 1)])))
  (.node 40 (.leaf [(42, 3)])
  (.node 41 (.leaf [(87, 3), (108, 1)])
  (.leaf [(41, 2)])))))))
  (.node 63 (.node 52 (.node 47 (.node 44 (.node 43 (.leaf [(41, 2)])
  (.leaf [(95, 2)]))
  (.node 45 (.leaf [(85, 2)])
  (.node 46 (.leaf [(85, 2)])
  (.leaf [(85, 2)]))))
  (.node 49 (.node 48 (.leaf [(80, 1)])
  (.leaf [(51, 1)]))
  (.node 50 (.leaf [(73, 3)])
  (.node 51 (.leaf [(46, 1)])
  (.leaf [(47, 1)])))))
  (.node 57 (.node 54 (.node 53 (.leaf [(75, 4)])
  (.leaf [(80, 1)]))
  (.node 55 (.leaf [(78, 2)])
  (.node 56 (.leaf [(85, 2)])
  (.leaf [(85, 2)]))))
  (.node 60 (.node 58 (.leaf [(77, 6)])
  (.node 59 (.leaf [(85, 2)])
  (.leaf [(85, 2)])))
  (.node 61 (.leaf [(51, 1)])
  (.node 62 (.leaf [(85, 2)])
  (.leaf [(85, 2)]))))))
  (.node 73 (.node 68 (.node 65 (.node 64 (.leaf [(85, 2)])
  (.leaf [(85, 2)]))
  (.node 66 (.leaf [(76, 5)])
  (.node 67 (.leaf [(85, 2)])
  (.leaf [(108, 1)]))))
  (.node 70 (.node 69 (.leaf [(52, 1), (53, 1), (54, 1), (80, 2), (85, 1), (90, 1), (91, 1), (92, 1), (93, 1), (94, 1)])
  (.leaf [(52, 1), (53, 1), (54, 1), (85, 1), (85, 3), (90, 1), (91, 1), (92, 1), (93, 1), (94, 1)]))
  (.node 71 (.leaf [(52, 1), (53, 1), (54, 1), (85, 1), (85, 3), (90, 1), (91, 1), (92, 1), (93, 1), (94, 1)])
  (.node 72 (.leaf [(52, 1), (53, 1), (54, 1), (85, 1), (85, 3), (90, 1), (91, 1), (92, 1), (93, 1), (94, 1)])
  (.leaf [(52, 1), (53, 1), (54, 1), (85, 1), (85, 3), (90, 1), (91, 1), (92, 1), (93, 1), (94, 1)])))))
  (.node 78 (.node 75 (.node 74 (.leaf [(41, 3), (52, 1), (53, 1), (54, 1), (85, 1), (90, 1), (91, 1), (92, 1), (93, 1), (94, 1)])
  (.leaf [(42, 4), (52, 1), (53, 1), (54, 1), (85, 1), (90, 1), (91, 1), (92, 1), (93, 1), (94, 1)]))
  (.node 76 (.leaf [(52, 1), (53, 1), (54, 1), (85, 1), (85, 3), (90, 1), (91, 1), (92, 1), (93, 1), (94, 1)])
  (.node 77 (.leaf [(7, 1), (52, 1), (53, 1), (54, 1), (85, 1), (90, 1), (91, 1), (92, 1), (93, 1), (94, 1), (95, 1)])
  (.leaf [(52, 1), (53, 1), (54, 1), (85, 1), (85, 3), (90, 1), (91, 1), (92, 1), (93, 1), (94, 1)]))))
  (.node 81 (.node 79 (.leaf [(35, 6)])
  (.node 80 (.leaf [(34, 6)])
  (.leaf [(47, 2), (52, 1), (53, 1), (54, 1), (85, 1), (90, 1), (91, 1), (92, 1), (93, 1), (94, 1)])))
  (.node 82 (.leaf [(46, 2), (52, 1), (53, 1), (54, 1), (85, 1), (90, 1), (91, 1), (92, 1), (93, 1), (94, 1)])
  (.node 83 (.leaf [(31, 5)])
  (.leaf [(9, 3)]))))))))
  (.node 126 (.node 105 (.node 94 (.node 89 (.node 86 (.node 85 (.leaf [(36, 7)])
  (.leaf [(8, 2)]))
  (.node 87 (.leaf [(7, 1), (52, 1), (53, 1), (54, 1), (85, 1), (90, 1), (91, 1), (92, 1), (93, 1), (94, 1)])
  (.node 88 (.leaf [(52, 1), (53, 1), (54, 1), (75, 5), (85, 1), (90, 1), (91, 1), (92, 1), (93, 1), (94, 1)])
  (.leaf [(6, 1)]))))
  (.node 91 (.node 90 (.leaf [(3, 1)])
  (.leaf [(40, 9)]))
  (.node 92 (.leaf [(37, 7)])
  (.node 93 (.leaf [(30, 4)])
  (.leaf [(49, 2), (52, 1), (53, 1), (54, 1), (85, 1), (90, 1), (91, 1), (92, 1), (93, 1), (94, 1)])))))
  (.node 99 (.node 96 (.node 95 (.leaf [(52, 1), (53, 1), (54, 1), (73, 4), (85, 1), (90, 1), (91, 1), (92, 1), (93, 1), (94, 1)])
  (.leaf [(4, 2)]))
  (.node 97 (.leaf [(52, 1), (53, 1), (54, 1), (77, 7), (85, 1), (90, 1), (91, 1), (92, 1), (93, 1), (94, 1)])
  (.node 98 (.leaf [(29, 3)])
  (.leaf [(52, 1), (53, 1), (54, 1), (78, 3), (85, 1), (90, 1), (91, 1), (92, 1), (93, 1), (94, 1)]))))
  (.node 102 (.node 100 (.leaf [(32, 5)])
  (.node 101 (.leaf [(52, 1), (53, 1), (54, 1), (76, 6), (85, 1), (90, 1), (91, 1), (92, 1), (93, 1), (94, 1)])
  (.leaf [(38, 8)])))
  (.node 103 (.leaf [(44, 5)])
  (.node 104 (.leaf [(45, 6)])
  (.leaf [(43, 3)]))))))
  (.node 115 (.node 110 (.node 107 (.node 106 (.leaf [(33, 6)])
  (.leaf [(39, 8)]))
  (.node 108 (.leaf [(102, 1)])
  (.node 109 (.leaf [(101, 1)])
  (.leaf [(52, 3)]))))
  (.node 112 (.node 111 (.leaf [(50, 1), (78, 1)])
  (.leaf [(90, 4)]))
  (.node 113 (.leaf [(91, 4)])
  (.node 114 (.leaf [(52, 1), (53, 1), (54, 1), (85, 1), (85, 3), (90, 1), (91, 1), (92, 1), (93, 1), (94, 1)])
  (.leaf [(99, 5)])))))
  (.node 120 (.node 117 (.node 116 (.leaf [(69, 1)])
  (.leaf [(103, 1)]))
  (.node 118 (.leaf [(89, 5)])
  (.node 119 (.leaf [(50, 1)])
  (.leaf [(88, 3)]))))
  (.node 123 (.node 121 (.leaf [(41, 3)])
  (.node 122 (.leaf [(42, 4), (52, 1), (53, 1), (54, 1), (85, 1), (90, 1), (91, 1), (92, 1), (93, 1), (94, 1)])
  (.leaf [(52, 1), (53, 1), (54, 1), (85, 1), (85, 3), (90, 1), (91, 1), (92, 1), (93, 1), (94, 1)])))
  (.node 124 (.leaf [(52, 1), (53, 1), (54, 1), (85, 1), (85, 3), (90, 1), (91, 1), (92, 1), (93, 1), (94, 1)])
  (.node 125 (.leaf [(53, 3)])
  (.leaf [(97, 3)])))))))
  (.node 147 (.node 136 (.node 131 (.node 128 (.node 127 (.leaf [(52, 1), (53, 1), (54, 1), (85, 1), (85, 3), (90, 1), (91, 1), (92, 1), (93, 1), (94, 1)])
  (.leaf [(93, 5)]))
  (.node 129 (.leaf [(42, 4)])
  (.node 130 (.leaf [(98, 4)])
  (.leaf [(52, 1), (53, 1), (54, 1), (85, 1), (85, 3), (90, 1), (91, 1), (92, 1), (93, 1), (94, 1)]))))
  (.node 133 (.node 132 (.leaf [(54, 4)])
  (.leaf [(52, 1), (53, 1), (54, 1), (85, 1), (85, 3), (90, 1), (91, 1), (92, 1), (93, 1), (94, 1)]))
  (.node 134 (.leaf [(41, 3), (52, 1), (53, 1), (54, 1), (85, 1), (90, 1), (91, 1), (92, 1), (93, 1), (94, 1)])
  (.node 135 (.leaf [(96, 2)])
  (.leaf [(9, 3)])))))
  (.node 141 (.node 138 (.node 137 (.leaf [(52, 1), (53, 1), (54, 1), (80, 2), (85, 1), (90, 1), (91, 1), (92, 1), (93, 1), (94, 1)])
  (.leaf [(96, 2)]))
  (.node 139 (.leaf [(51, 3)])
  (.node 140 (.leaf [(87, 4)])
  (.leaf [(94, 6)]))))
  (.node 144 (.node 142 (.leaf [(86, 2)])
  (.node 143 (.leaf [(92, 5)])
  (.leaf [(52, 1), (53, 1), (54, 1), (85, 1), (87, 2), (88, 2), (89, 2), (90, 1), (91, 1), (92, 1), (93, 1), (94, 1)])))
  (.node 145 (.leaf [(101, 1)])
  (.node 146 (.leaf [(52, 1), (53, 1), (54, 1), (85, 1), (90, 1), (91, 1), (92, 1), (93, 1), (94, 1), (108, 2)])
  (.leaf [(102, 1)]))))))
  (.node 157 (.node 152 (.node 149 (.node 148 (.leaf [(52, 1), (53, 1), (54, 1), (65, 1), (66, 1), (67, 1), (68, 1), (85, 1), (90, 1), (91, 1), (92, 1), (93, 1), (94, 1)])
  (.leaf [(52, 1), (53, 1), (54, 1), (85, 1), (87, 2), (88, 2), (89, 2), (90, 1), (91, 1), (92, 1), (93, 1), (94, 1)]))
  (.node 150 (.leaf [(52, 1), (53, 1), (54, 1), (85, 1), (90, 1), (91, 1), (92, 1), (93, 1), (94, 1), (95, 3)])
  (.node 151 (.leaf [(52, 1), (53, 1), (54, 1), (85, 1), (90, 1), (90, 3), (91, 1), (92, 1), (93, 1), (93, 3), (94, 1), (94, 3)])
  (.leaf [(52, 1), (53, 1), (54, 1), (85, 1), (90, 1), (90, 3), (91, 1), (92, 1), (93, 1), (93, 3), (94, 1), (94, 3)]))))
  (.node 154 (.node 153 (.leaf [(91, 4)])
  (.leaf [(51, 2), (52, 1), (53, 1), (54, 1), (85, 1), (90, 1), (91, 1), (92, 1), (93, 1), (94, 1)]))
  (.node 155 (.leaf [(51, 2), (52, 1), (53, 1), (54, 1), (85, 1), (90, 1), (91, 1), (92, 1), (93, 1), (94, 1)])
  (.node 156 (.leaf [(50, 1)])
  (.leaf [(103, 1)])))))
  (.node 162 (.node 159 (.node 158 (.leaf [(69, 1)])
  (.leaf [(97, 3)]))
  (.node 160 (.leaf [(51, 3)])
  (.node 161 (.leaf [(41, 3)])
  (.leaf [(88, 3)]))))
  (.node 165 (.node 163 (.leaf [(52, 3)])
  (.node 164 (.leaf [(53, 3)])
  (.leaf [(98, 4)])))
  (.node 166 (.leaf [(42, 4)])
  (.node 167 (.leaf [(87, 4)])
  (.leaf [(54, 4)])))))))))
  (.node 252 (.node 210 (.node 189 (.node 178 (.node 173 (.node 170 (.node 169 (.leaf [(52, 1), (53, 1), (54, 1), (85, 1), (90, 1), (91, 1), (92, 1), (93, 1), (94, 1), (95, 1)])
  (.leaf [(90, 4)]))
  (.node 171 (.leaf [(96, 2)])
  (.node 172 (.leaf [(99, 5)])
  (.leaf [(52, 1), (53, 1), (54, 1), (85, 1), (90, 1), (91, 1), (92, 1), (93, 1), (94, 1), (94, 5)]))))
  (.node 175 (.node 174 (.leaf [(52, 1), (53, 1), (54, 1), (85, 1), (90, 1), (91, 1), (92, 1), (93, 1), (94, 1), (94, 5)])
  (.leaf [(52, 1), (53, 1), (54, 1), (85, 1), (90, 1), (91, 1), (92, 1), (92, 4), (93, 1), (94, 1)]))
  (.node 176 (.leaf [(52, 1), (53, 1), (54, 1), (85, 1), (90, 1), (91, 1), (92, 1), (92, 4), (93, 1), (94, 1)])
  (.node 177 (.leaf [(89, 5)])
  (.leaf [(92, 5)])))))
  (.node 183 (.node 180 (.node 179 (.leaf [(93, 5)])
  (.leaf [(94, 6)]))
  (.node 181 (.leaf [(96, 2)])
  (.node 182 (.leaf [(9, 3)])
  (.leaf [(86, 2)]))))
  (.node 186 (.node 184 (.leaf [(82, 1)])
  (.node 185 (.leaf [(79, 1)])
  (.leaf [(84, 1)])))
  (.node 187 (.leaf [(81, 1)])
  (.node 188 (.leaf [(83, 1)])
  (.leaf [(4, 1), (9, 2)]))))))
  (.node 199 (.node 194 (.node 191 (.node 190 (.leaf [(4, 1), (9, 2)])
  (.leaf [(4, 1), (9, 2)]))
  (.node 192 (.leaf [(4, 1)])
  (.node 193 (.leaf [(35, 4)])
  (.leaf [(27, 6)]))))
  (.node 196 (.node 195 (.leaf [(36, 5)])
  (.leaf [(57, 2)]))
  (.node 197 (.leaf [(56, 2)])
  (.node 198 (.leaf [(40, 7)])
  (.leaf [(24, 5)])))))
  (.node 204 (.node 201 (.node 200 (.leaf [(60, 2)])
  (.leaf [(57, 4)]))
  (.node 202 (.leaf [(26, 6)])
  (.node 203 (.leaf [(21, 3)])
  (.leaf [(74, 4), (77, 4)]))))
  (.node 207 (.node 205 (.leaf [(60, 2)])
  (.node 206 (.leaf [(38, 6)])
  (.leaf [(28, 7)])))
  (.node 208 (.leaf [(56, 2)])
  (.node 209 (.leaf [(32, 3)])
  (.leaf [(57, 4)])))))))
  (.node 231 (.node 220 (.node 215 (.node 212 (.node 211 (.leaf [(23, 4)])
  (.leaf [(39, 6)]))
  (.node 213 (.leaf [(57, 2)])
  (.node 214 (.leaf [(72, 3), (76, 3)])
  (.leaf [(31, 3), (33, 3), (36, 3), (38, 3)]))))
  (.node 217 (.node 216 (.leaf [(41, 1), (42, 1)])
  (.leaf [(29, 1), (31, 1), (32, 1), (33, 1), (36, 1), (38, 1)]))
  (.node 218 (.leaf [(20, 4), (25, 4), (27, 4), (28, 4)])
  (.node 219 (.leaf [(17, 1), (18, 1), (21, 1), (22, 1), (24, 1), (26, 1)])
  (.leaf [(41, 1), (42, 1)])))))
  (.node 225 (.node 222 (.node 221 (.leaf [(10, 1), (11, 1)])
  (.leaf [(19, 2), (20, 2), (23, 2), (25, 2), (27, 2), (28, 2)]))
  (.node 223 (.leaf [(30, 2), (34, 2), (35, 2), (37, 2), (39, 2), (40, 2)])
  (.node 224 (.leaf [(34, 4), (37, 4), (39, 4), (40, 4)])
  (.leaf [(18, 3), (22, 3), (24, 3), (26, 3)]))))
  (.node 228 (.node 226 (.leaf [(44, 3), (45, 3)])
  (.node 227 (.leaf [(17, 2), (18, 2), (21, 2), (22, 2), (24, 2), (26, 2)])
  (.leaf [(55, 1), (57, 1)])))
  (.node 229 (.leaf [(64, 3), (106, 1)])
  (.node 230 (.leaf [(19, 3), (20, 3), (23, 3), (25, 3), (27, 3), (28, 3)])
  (.leaf [(71, 3), (74, 3), (75, 3), (77, 3)]))))))
  (.node 241 (.node 236 (.node 233 (.node 232 (.leaf [(62, 2), (106, 1)])
  (.leaf [(62, 2), (106, 1)]))
  (.node 234 (.leaf [(70, 2), (72, 2), (73, 2), (76, 2)])
  (.node 235 (.leaf [(100, 1)])
  (.leaf [(55, 1), (56, 1)]))))
  (.node 238 (.node 237 (.leaf [(64, 3), (106, 1)])
  (.leaf [(56, 4)]))
  (.node 239 (.leaf [(106, 1)])
  (.node 240 (.leaf [(25, 6), (28, 6)])
  (.leaf [(72, 4), (76, 4)])))))
  (.node 246 (.node 243 (.node 242 (.leaf [(20, 5), (27, 5)])
  (.leaf [(57, 6)]))
  (.node 244 (.leaf [(106, 1)])
  (.node 245 (.leaf [(55, 1)])
  (.leaf [(13, 2)]))))
  (.node 249 (.node 247 (.leaf [(58, 1)])
  (.node 248 (.leaf [(18, 4), (24, 4)])
  (.leaf [(74, 5), (77, 5)])))
  (.node 250 (.leaf [(12, 1), (13, 1)])
  (.node 251 (.leaf [(11, 2)])
  (.leaf [(22, 5), (26, 5)]))))))))
  (.node 294 (.node 273 (.node 262 (.node 257 (.node 254 (.node 253 (.leaf [(28, 8)])
  (.leaf [(10, 2)]))
  (.node 255 (.leaf [(27, 7)])
  (.node 256 (.leaf [(52, 2)])
  (.leaf [(26, 7)]))))
  (.node 259 (.node 258 (.leaf [(70, 1), (72, 1), (73, 1), (76, 1)])
  (.leaf [(21, 4)]))
  (.node 260 (.leaf [(52, 2)])
  (.node 261 (.leaf [(24, 6)])
  (.leaf [(7, 1)])))))
  (.node 267 (.node 264 (.node 263 (.leaf [(13, 3)])
  (.leaf [(11, 3)]))
  (.node 265 (.leaf [(71, 2), (74, 2), (75, 2), (77, 2)])
  (.node 266 (.leaf [(23, 5)])
  (.leaf [(43, 1), (44, 1), (45, 1)]))))
  (.node 270 (.node 268 (.leaf [(105, 1), (105, 2)])
  (.node 269 (.leaf [(16, 1), (105, 1)])
  (.leaf [(14, 1)])))
  (.node 271 (.leaf [(55, 1), (56, 1)])
  (.node 272 (.leaf [(55, 1), (57, 1)])
  (.leaf [(104, 1)]))))))
  (.node 283 (.node 278 (.node 275 (.node 274 (.leaf [(55, 1)])
  (.leaf [(58, 1)]))
  (.node 276 (.leaf [(15, 1)])
  (.node 277 (.leaf [(57, 6)])
  (.leaf [(56, 4)]))))
  (.node 280 (.node 279 (.leaf [(30, 3), (34, 3), (35, 3), (37, 3), (39, 3), (40, 3)])
  (.leaf [(102, 1)]))
  (.node 281 (.leaf [(101, 1)])
  (.node 282 (.leaf [(29, 2), (31, 2), (32, 2), (33, 2), (36, 2), (38, 2)])
  (.leaf [(109, 1), (109, 2)])))))
  (.node 288 (.node 285 (.node 284 (.leaf [(106, 2)])
  (.leaf [(61, 1), (62, 1), (63, 1), (64, 1)]))
  (.node 286 (.leaf [(100, 1)])
  (.node 287 (.leaf [(97, 2), (98, 2), (99, 2)])
  (.leaf [(107, 1), (107, 2)]))))
  (.node 291 (.node 289 (.leaf [(98, 3), (99, 3), (111, 1)])
  (.node 290 (.leaf [(60, 3)])
  (.leaf [(34, 5), (39, 5)])))
  (.node 292 (.leaf [(107, 1), (107, 2)])
  (.node 293 (.leaf [(63, 2), (64, 2), (107, 1)])
  (.leaf [(63, 2), (64, 2), (107, 1)])))))))
  (.node 315 (.node 304 (.node 299 (.node 296 (.node 295 (.leaf [(87, 3), (89, 3), (109, 1)])
  (.leaf [(19, 1), (20, 1), (23, 1), (25, 1), (27, 1), (28, 1), (30, 1), (34, 1), (35, 1), (37, 1), (39, 1), (40, 1), (71, 1), (74, 1), (75, 1), (77, 1)]))
  (.node 297 (.leaf [(67, 2), (68, 2), (109, 1)])
  (.node 298 (.leaf [(97, 2), (98, 2), (99, 2)])
  (.leaf [(59, 1), (60, 1)]))))
  (.node 301 (.node 300 (.leaf [(87, 3), (89, 3), (109, 1)])
  (.leaf [(61, 1), (62, 1), (63, 1), (64, 1)]))
  (.node 302 (.leaf [(33, 5), (38, 5)])
  (.node 303 (.leaf [(111, 1), (111, 2)])
  (.leaf [(37, 6), (40, 6)])))))
  (.node 309 (.node 306 (.node 305 (.leaf [(43, 2), (44, 2), (45, 2)])
  (.leaf [(98, 3), (99, 3), (111, 1)]))
  (.node 307 (.leaf [(59, 1), (60, 1)])
  (.node 308 (.leaf [(31, 4), (36, 4)])
  (.leaf [(45, 5)]))))
  (.node 312 (.node 310 (.leaf [(110, 2)])
  (.node 311 (.leaf [(35, 5)])
  (.leaf [(44, 4)])))
  (.node 313 (.leaf [(36, 6)])
  (.node 314 (.leaf [(39, 7)])
  (.leaf [(32, 4)]))))))
  (.node 325 (.node 320 (.node 317 (.node 316 (.leaf [(38, 7)])
  (.leaf [(40, 8)]))
  (.node 318 (.leaf [(25, 5), (28, 5)])
  (.node 319 (.leaf [(22, 4), (26, 4)])
  (.leaf [(42, 2)]))))
  (.node 322 (.node 321 (.leaf [(56, 3)])
  (.leaf [(57, 5)]))
  (.node 323 (.leaf [(56, 3)])
  (.node 324 (.leaf [(57, 5)])
  (.leaf [(54, 3)])))))
  (.node 330 (.node 327 (.node 326 (.leaf [(45, 4)])
  (.leaf [(33, 4), (38, 4)]))
  (.node 328 (.leaf [])
  (.node 329 (.leaf [(42, 2)])
  (.leaf [(54, 3)]))))
  (.node 333 (.node 331 (.leaf [(30, 1), (34, 1), (35, 1), (37, 1), (39, 1), (40, 1)])
  (.node 332 (.leaf [(5, 1)])
  (.leaf [(37, 5), (40, 5)])))
  (.node 334 (.leaf [(57, 3)])
  (.node 335 (.leaf [(57, 3)])
  (.leaf [(5, 2)])))))))))

/-- The state that a shift leads to, 0 if there is none. -/
def shiftTo : List Act → Nat
  | [.shift q] => q
  | _ => 0

/-- Next state for any symbol, 0 if there is none. -/
def edge (q X : Nat) : Nat := bif Nat.blt X 60 then shiftTo (actions q X) else goto q X

def itemIn (r k : Nat) : List (Nat × Nat) → Bool
  | [] => false
  | (a, b) :: l => (Nat.beq a r && Nat.beq b k) || itemIn r k l

def natIn (x : Nat) : List Nat → Bool
  | [] => false
  | a :: l => Nat.beq a x || natIn x l

def nth {α : Type} (d : α) : List α → Nat → α
  | [], _ => d
  | a :: l, n => match n with
    | 0 => a
    | n + 1 => nth d l n

def ruleOf (r : Nat) : Rule := nth ⟨0, 0, []⟩ grammar r

def chkItem (q X : Nat) : Nat × Nat → Bool
  | (_, 0) => false
  | (r, k + 1) => natIn X (nth [] (ruleOf r).rhs k) &&
      (match k with
      | 0 => !Nat.beq (goto q (ruleOf r).lhs) 0
      | _ + 1 => itemIn r k (items.get q))

def isAccept : List Act → Bool
  | [.accept] => true
  | _ => false

def chkEdgeTo (q X q' : Nat) : Bool :=
  Nat.beq q' 0 || Nat.beq X 62 || (!Nat.beq q' 1 && Nat.blt q' 336 && (items.get q').all (chkItem q X) &&
    (!isAccept (actions q' 0) || (Nat.beq q 1 && Nat.beq X 60)) &&
    (!Nat.beq q' 335 || Nat.beq X 5) && (!Nat.beq q' 331 || Nat.beq X 4))

def chkEdge (q X : Nat) : Bool := chkEdgeTo q X (edge q X)

def chkActs (q t : Nat) : List Act → Bool
  | [] => true
  | [.shift q'] => !Nat.beq t 0 && !Nat.beq q' 0 && (!Nat.beq t 4 || (Nat.beq (goto q 62) q && !Nat.beq q 0))
  | [.shiftExtra] => Nat.beq t 3
  | [.reduce A n pid] => !Nat.beq t 3 && !Nat.beq t 4 && (Nat.beq q 335 || !Nat.beq A 62) &&
      ((Nat.beq n 0 && Nat.beq A 60 && Nat.beq pid 0 && Nat.beq q 1) ||
        (items.get q).any fun (r, k) => Nat.beq k n && Nat.beq (ruleOf r).lhs A && Nat.beq (ruleOf r).pid pid &&
          Nat.beq (ruleOf r).rhs.length n && !Nat.beq n 0)
  | [.accept] => Nat.beq t 0
  | [.recover] => true
  | _ => false

/-- State 0 is used in recovery only. -/
def chkState (q : Nat) : Bool := Nat.beq q 0 || (
  (List.range 110).all (fun X => chkEdge q X) && (List.range 60).all (fun t => chkActs q t (actions q t)) &&
    (rows.get q).acts.all (fun (_, m) => Nat.blt m (2 ^ 60)))

set_option maxRecDepth 100000 in
theorem chk_states : (List.range 336).all chkState = true := by decide +kernel

end Bob.Parse
