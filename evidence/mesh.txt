0 -12500000000000000 500000000000000 1 0
0 -10466114094029859 500000000000000 2 58
0 -2947313005103255 500000000000000 3 242
0 -1655929442773679 500000000000000 4 276
0 269799817641746 500000000000000 5 44
0 2319915295590078 500000000000000 6 109
0 3938062805201483 500000000000000 7 20
0 4176957879048583 500000000000000 8 101
0 5696381731813315 500000000000000 9 218
0 6352716076756563 500000000000000 10 431
0 6509880936610814 500000000000000 11 30
0 12500000000000000 500000000000000 0 11
1 -12500000000000000 500000000000000 13 12
1 -5697435036509087 500000000000000 14 40
1 9416898196245221 500000000000000 15 207
1 12500000000000000 500000000000000 12 15
2 -12500000000000000 1500000000000000 17 16
2 -12474629874539146 1500000000000000 18 79
2 -6587096301092497 1500000000000000 19 214
2 -2969541644692466 1500000000000000 20 108
2 -1799582182818686 1500000000000000 21 6
2 -1503024937077154 1500000000000000 22 102
2 84314333834794 1500000000000000 23 33
2 4851228137989146 1500000000000000 24 166
2 5294868599167611 1500000000000000 25 359
2 7263285524273860 1500000000000000 26 198
2 10959617515219068 1500000000000000 27 180
2 12500000000000000 1500000000000000 16 27
3 -12500000000000000 2500000000000000 29 28
3 -11658716563196577 2500000000000000 30 930
3 8253676497483601 2500000000000000 31 10
3 8451450342773728 2500000000000000 32 432
3 9458880092777699 2500000000000000 33 219
3 11771962287228614 2500000000000000 34 22
3 12500000000000000 2500000000000000 28 34
4 -12500000000000000 1500000000000000 36 35
4 -8985370638456186 1500000000000000 37 237
4 664849102538397 1500000000000000 38 312
4 2763605187235411 1500000000000000 39 320
4 6507986116576199 1500000000000000 40 438
4 11341763882276261 1500000000000000 41 13
4 12500000000000000 1500000000000000 35 41
5 -12500000000000000 1500000000000000 43 42
5 -10983610334483727 1500000000000000 44 215
5 -7165081560880591 1500000000000000 45 4
5 -4868562225334874 1500000000000000 46 112
5 -2251658645917194 1500000000000000 47 247
5 -1570701326331211 1500000000000000 48 354
5 1667263584421064 1500000000000000 49 151
5 2932390966005964 1500000000000000 50 173
5 3953600336665362 1500000000000000 51 283
5 9125838529744162 1500000000000000 52 326
5 9747858794609155 1500000000000000 53 301
5 9807017736585612 1500000000000000 54 88
5 12500000000000000 1500000000000000 42 54
6 -12500000000000000 1500000000000000 56 55
6 -11596423897333552 1500000000000000 57 269
6 -2469740234286473 1500000000000000 58 240
6 6264470236875347 1500000000000000 59 1
6 7712780565214497 1500000000000000 60 347
6 12500000000000000 1500000000000000 55 60
7 -12500000000000000 500000000000000 62 61
7 -6166784859954418 500000000000000 63 131
7 -6152537590819882 500000000000000 64 183
7 -1850698395248252 500000000000000 65 576
7 -973992847317316 500000000000000 66 158
7 -276253028060176 500000000000000 67 306
7 475519908894230 500000000000000 68 230
7 477246348359084 500000000000000 69 91
7 6514401971420191 500000000000000 70 331
7 12500000000000000 500000000000000 61 70
8 -12500000000000000 500000000000000 72 71
8 -3361437497549713 500000000000000 73 571
8 -874198528738260 500000000000000 74 127
8 10490084235800657 500000000000000 75 140
8 12500000000000000 500000000000000 71 75
9 -12500000000000000 2500000000000000 77 76
9 -10428950390799023 2500000000000000 78 317
9 3378434816866652 2500000000000000 79 427
9 4637036681842541 2500000000000000 80 17
9 9307673506480561 2500000000000000 81 270
9 10251165581282574 2500000000000000 82 384
9 12500000000000000 2500000000000000 76 82
10 -12500000000000000 2500000000000000 84 83
10 -4191162630345639 2500000000000000 85 421
10 -2175798099597015 2500000000000000 86 298
10 -1532714784260302 2500000000000000 87 381
10 -1388672485594147 2500000000000000 88 447
10 -1143398186497471 2500000000000000 89 53
10 1576372976848379 2500000000000000 90 205
10 5163305342419012 2500000000000000 91 122
10 7700866220889093 2500000000000000 92 68
10 7702085750547729 2500000000000000 93 231
10 10038194883732048 2500000000000000 94 160
10 10859442419442568 2500000000000000 95 578
10 12500000000000000 2500000000000000 83 95
11 -12500000000000000 2500000000000000 97 96
11 -8355561232340445 2500000000000000 98 212
11 -3622840258882276 2500000000000000 99 314
11 382447767529223 2500000000000000 100 106
11 1606870216216193 2500000000000000 101 430
11 4949452539504755 2500000000000000 102 7
11 5370648399759658 2500000000000000 103 21
11 11028495538492959 2500000000000000 104 392
11 12500000000000000 2500000000000000 96 104
12 -12500000000000000 3500000000000000 106 105
12 -7228460858250729 3500000000000000 107 99
12 -6229363868950599 3500000000000000 108 429
12 -3376861378865255 3500000000000000 109 19
12 -1173974404100561 3500000000000000 110 5
12 1107193067562460 3500000000000000 111 475
12 1491329737241154 3500000000000000 112 391
12 2618099991108054 3500000000000000 113 45
12 4446434375363615 3500000000000000 114 246
12 4985142090364604 3500000000000000 115 279
12 5682292793017434 3500000000000000 116 374
12 6634204803157572 3500000000000000 117 350
12 8205778684519954 3500000000000000 118 148
12 11229517830943021 3500000000000000 119 418
12 12500000000000000 3500000000000000 105 119
13 -12500000000000000 3500000000000000 121 120
13 -12339770960631003 3500000000000000 122 303
13 -11829287674893684 3500000000000000 123 90
13 -6215459829150408 3500000000000000 124 330
13 -5917552042652557 3500000000000000 125 451
13 145604504074855 3500000000000000 126 935
13 402976955198251 3500000000000000 127 263
13 4462388421494445 3500000000000000 128 73
13 6730052969210805 3500000000000000 129 572
13 12500000000000000 3500000000000000 120 129
14 -12500000000000000 1500000000000000 131 130
14 -11654766718015917 1500000000000000 132 62
14 -11583918920469696 1500000000000000 133 184
14 -6692642600698376 1500000000000000 134 189
14 3706437026842397 1500000000000000 135 145
14 11703828796724862 1500000000000000 136 426
14 12500000000000000 1500000000000000 130 136
15 -12500000000000000 1500000000000000 138 137
15 -8224611172907786 1500000000000000 139 333
15 -232028415676314 1500000000000000 140 264
15 2570052861149685 1500000000000000 141 74
15 12500000000000000 1500000000000000 137 141
16 -12500000000000000 2500000000000000 143 142
16 -11171309257502350 2500000000000000 144 169
16 -3318901666214017 2500000000000000 145 259
16 5901905078501743 2500000000000000 146 134
16 12500000000000000 2500000000000000 142 146
17 -12500000000000000 4500000000000000 148 147
17 -11384403320760869 4500000000000000 149 117
17 -9705972877046635 4500000000000000 150 376
17 -8844205616766648 4500000000000000 151 281
17 -8360371019928154 4500000000000000 152 48
17 -6407862015945524 4500000000000000 153 493
17 -5871095432849948 4500000000000000 154 175
17 -3223988012060449 4500000000000000 155 203
17 -1552768997482401 4500000000000000 156 400
17 -253527868061980 4500000000000000 157 254
17 1425226775128635 4500000000000000 158 227
17 2840959204046537 4500000000000000 159 65
17 3617816214801558 4500000000000000 160 307
17 4655291717571882 4500000000000000 161 93
17 8701231949574439 4500000000000000 162 579
17 11723033139538136 4500000000000000 163 336
17 12500000000000000 4500000000000000 147 163
18 -12500000000000000 3500000000000000 165 164
18 -12464132961080107 3500000000000000 166 357
18 -10772486090670481 3500000000000000 167 23
18 -9749452540408420 3500000000000000 168 222
18 -8873734681825482 3500000000000000 169 195
18 3012757139646788 3500000000000000 170 143
18 12500000000000000 3500000000000000 164 170
19 -12500000000000000 5500000000000000 172 171
19 -12400035127090414 5500000000000000 173 282
19 -12233600581051948 5500000000000000 174 49
19 -10711683540240978 5500000000000000 175 494
19 -10110312019346677 5500000000000000 176 153
19 -7774461485901880 5500000000000000 177 251
19 -7481303843107074 5500000000000000 178 396
19 -7414037727347832 5500000000000000 179 200
19 -6947683427690623 5500000000000000 180 406
19 -5123344733508158 5500000000000000 181 26
19 -4710935424044895 5500000000000000 182 225
19 -2614289410964977 5500000000000000 183 622
19 79610647530555 5500000000000000 184 63
19 156794939932765 5500000000000000 185 132
19 4860191109893159 5500000000000000 186 188
19 12500000000000000 5500000000000000 171 186
20 -12500000000000000 6500000000000000 188 187
20 -2337450425310409 6500000000000000 189 185
20 -1488716697255000 6500000000000000 190 133
20 3627625015798662 6500000000000000 191 410
20 6518360486654844 6500000000000000 192 337
20 8300536701186563 6500000000000000 193 581
20 12500000000000000 6500000000000000 187 193
21 -12500000000000000 6500000000000000 195 194
21 -11993545232064814 6500000000000000 196 168
21 -10959588482904014 6500000000000000 197 361
21 -10303677722458075 6500000000000000 198 224
21 -8798087698620637 6500000000000000 199 25
21 -5341385024623321 6500000000000000 200 405
21 -5141662577468452 6500000000000000 201 178
21 -5054339111665892 6500000000000000 202 397
21 -4823577279807523 6500000000000000 203 252
21 -3733516637328471 6500000000000000 204 154
21 1425369715507078 6500000000000000 205 302
21 1665688729646613 6500000000000000 206 89
21 4527869463046613 6500000000000000 207 449
21 4829694058017885 6500000000000000 208 14
21 11722056936985556 6500000000000000 209 934
21 12500000000000000 6500000000000000 194 209
22 -12500000000000000 3500000000000000 211 210
22 -12002641978476548 3500000000000000 212 318
22 -2027761757513015 3500000000000000 213 97
22 5674565256538196 3500000000000000 214 428
22 7866290713331554 3500000000000000 215 18
22 10974210938082418 3500000000000000 216 43
22 12500000000000000 3500000000000000 210 216
23 -12500000000000000 7500000000000000 218 217
23 -12238852391344911 7500000000000000 219 8
23 -11574830532495529 7500000000000000 220 32
23 -9371049807596295 7500000000000000 221 477
23 -7119611843490299 7500000000000000 222 488
23 -5239742460527228 7500000000000000 223 167
23 -4536665051463673 7500000000000000 224 360
23 -3946777211876966 7500000000000000 225 197
23 1122775990705440 7500000000000000 226 181
23 2335502405238902 7500000000000000 227 408
23 4934579599886406 7500000000000000 228 157
23 6059431059463325 7500000000000000 229 255
23 6391860254375043 7500000000000000 230 304
23 6948174460235597 7500000000000000 231 67
23 6949520879692761 7500000000000000 232 92
23 11548774009037430 7500000000000000 233 332
23 12500000000000000 7500000000000000 217 233
24 -12500000000000000 2500000000000000 235 234
24 -8510950832936239 2500000000000000 236 334
24 -10108862772253 2500000000000000 237 265
24 9083033552917110 2500000000000000 238 36
24 12500000000000000 2500000000000000 234 238
25 -12500000000000000 8500000000000000 240 239
25 -11221582564849926 8500000000000000 241 57
25 -8824972017463908 8500000000000000 242 567
25 -5459977079685061 8500000000000000 243 2
25 -5434176792494295 8500000000000000 244 471
25 -3660704846080819 8500000000000000 245 372
25 -3142447317472288 8500000000000000 246 278
25 -2518375947627405 8500000000000000 247 113
25 -1213715246698417 8500000000000000 248 46
25 -417320568213313 8500000000000000 249 355
25 2861966241314983 8500000000000000 250 492
25 4805336360901506 8500000000000000 251 403
25 5679184033771629 8500000000000000 252 176
25 6083258634997559 8500000000000000 253 202
25 6705683271018837 8500000000000000 254 398
25 9475325282890709 8500000000000000 255 156
25 12064763734964251 8500000000000000 256 228
25 12448945760710651 8500000000000000 257 305
25 12500000000000000 8500000000000000 239 257
26 -12500000000000000 3500000000000000 259 258
26 -11174562775565355 3500000000000000 260 144
26 12500000000000000 3500000000000000 258 260
27 -12500000000000000 4500000000000000 262 261
27 -8531967072558263 4500000000000000 263 570
27 -1030172304064798 4500000000000000 264 126
27 8520439942622446 4500000000000000 265 139
27 10615258395208562 4500000000000000 266 236
27 12500000000000000 4500000000000000 261 266
28 -12500000000000000 9500000000000000 268 267
28 -11743146696793786 9500000000000000 269 537
28 -11448796097571702 9500000000000000 270 56
28 -8470939911447127 9500000000000000 271 80
28 -6408620724400594 9500000000000000 272 531
28 -5410029595400796 9500000000000000 273 386
28 -4244580452569974 9500000000000000 274 563
28 -2936458998658981 9500000000000000 275 696
28 -380915062181069 9500000000000000 276 370
28 1117781544811070 9500000000000000 277 3
28 1566166934225416 9500000000000000 278 473
28 3589615411747983 9500000000000000 279 245
28 4555958753370989 9500000000000000 280 114
28 5896735120711525 9500000000000000 281 352
28 8794228766102679 9500000000000000 282 150
28 10329149866865627 9500000000000000 283 172
28 11366507645017226 9500000000000000 284 50
28 12500000000000000 9500000000000000 267 284
29 -12500000000000000 500000000000000 286 285
29 786598635477755 500000000000000 287 311
29 4915909221218758 500000000000000 288 321
29 5813194905202927 500000000000000 289 437
29 12500000000000000 500000000000000 285 289
30 -12500000000000000 500000000000000 291 290
30 -8282993618978475 500000000000000 292 343
30 -154760014079573 500000000000000 293 585
30 4868782040208726 500000000000000 294 435
30 12500000000000000 500000000000000 290 294
31 -12500000000000000 9500000000000000 296 295
31 -6454090079355287 9500000000000000 297 642
31 -2928276062350356 9500000000000000 298 422
31 -910500217147039 9500000000000000 299 85
31 -265112633966120 9500000000000000 300 380
31 -151133376029891 9500000000000000 301 446
31 130667059238724 9500000000000000 302 52
31 2949523017758015 9500000000000000 303 204
31 6715598724450140 9500000000000000 304 121
31 8928794159923161 9500000000000000 305 229
31 9108226445219326 9500000000000000 306 256
31 9457760135743806 9500000000000000 307 66
31 10508365445421468 9500000000000000 308 159
31 11489952291237521 9500000000000000 309 577
31 12500000000000000 9500000000000000 295 309
32 -12500000000000000 3500000000000000 311 310
32 -7560699577020992 3500000000000000 312 286
32 -5561397155660005 3500000000000000 313 37
32 -3729309883077338 3500000000000000 314 319
32 11390843865288757 3500000000000000 315 98
32 12500000000000000 3500000000000000 310 315
33 -12500000000000000 4500000000000000 317 316
33 -11815396547081040 4500000000000000 318 77
33 -9116023375613993 4500000000000000 319 211
33 -7705927488478442 4500000000000000 320 313
33 -5637473052763833 4500000000000000 321 38
33 -3828386052582615 4500000000000000 322 287
33 -3340778803225892 4500000000000000 323 436
33 8997588311110934 4500000000000000 324 420
33 11264508348634763 4500000000000000 325 444
33 11767049071279862 4500000000000000 326 378
33 12222978356730582 4500000000000000 327 51
33 12500000000000000 4500000000000000 316 327
34 -12500000000000000 8500000000000000 329 328
34 -10294246598200565 8500000000000000 330 450
34 -9969566789013385 8500000000000000 331 123
34 -8215329112452272 8500000000000000 332 69
34 -3958781270097413 8500000000000000 333 232
34 -3611507257023082 8500000000000000 334 138
34 -1980429057241468 8500000000000000 335 235
34 2873622969240644 8500000000000000 336 580
34 3472891074896966 8500000000000000 337 162
34 4504316039638543 8500000000000000 338 191
34 5795180552313624 8500000000000000 339 523
34 5798902295403168 8500000000000000 340 466
34 8801087477722519 8500000000000000 341 413
34 9768251454099146 8500000000000000 342 667
34 12073418614598444 8500000000000000 343 625
34 12215216736684298 8500000000000000 344 291
34 12500000000000000 8500000000000000 328 344
35 -12500000000000000 10500000000000000 346 345
35 -11945066564865180 10500000000000000 347 641
35 -9141330995269859 10500000000000000 348 59
35 -8552596738587876 10500000000000000 349 442
35 -3926452066717435 10500000000000000 350 417
35 -1303969746518394 10500000000000000 351 116
35 -793346245013637 10500000000000000 352 375
35 -317818625233824 10500000000000000 353 280
35 182407487355575 10500000000000000 354 917
35 568550485767497 10500000000000000 355 47
35 1088915243592201 10500000000000000 356 248
35 2997605918992901 10500000000000000 357 393
35 4254656417249264 10500000000000000 358 165
35 4857738554183080 10500000000000000 359 490
35 5966209686045430 10500000000000000 360 24
35 6930636059773146 10500000000000000 361 223
35 7265694375196466 10500000000000000 362 196
35 9304440671805738 10500000000000000 363 703
35 9427250183803049 10500000000000000 364 619
35 12500000000000000 10500000000000000 345 364
36 -12500000000000000 11500000000000000 366 365
36 -12324973926847445 11500000000000000 367 532
36 -10804401185484651 11500000000000000 368 561
36 -10609925213059352 11500000000000000 369 388
36 -9000392239047577 11500000000000000 370 697
36 -6607622732762798 11500000000000000 371 275
36 -4647338957948991 11500000000000000 372 472
36 -3070861274481777 11500000000000000 373 244
36 -1736734562453017 11500000000000000 374 916
36 -1096147211877913 11500000000000000 375 115
36 -321097554130672 11500000000000000 376 351
36 2030222296467355 11500000000000000 377 149
36 8099836928124584 11500000000000000 378 495
36 10170695773829918 11500000000000000 379 325
36 10749261058947198 11500000000000000 380 445
36 10915451208743942 11500000000000000 381 299
36 10951878619120575 11500000000000000 382 86
36 12500000000000000 11500000000000000 365 382
37 -12500000000000000 12500000000000000 384 383
37 -12257280134421268 12500000000000000 385 81
37 -11048039256908883 12500000000000000 386 530
37 -9714007918220508 12500000000000000 387 272
37 -8776530039826398 12500000000000000 388 562
37 -8632511926377392 12500000000000000 389 368
37 -6168617003134600 12500000000000000 390 698
37 -2554232287483658 12500000000000000 391 474
37 -2250280062867264 12500000000000000 392 111
37 553300685454608 12500000000000000 393 103
37 2129737588942813 12500000000000000 394 356
37 4001473039224485 12500000000000000 395 491
37 7220844145865186 12500000000000000 396 404
37 7584616057068589 12500000000000000 397 177
37 7677761022381697 12500000000000000 398 201
37 8446540297837826 12500000000000000 399 253
37 9454865745378981 12500000000000000 400 763
37 10034920186042479 12500000000000000 401 155
37 12500000000000000 12500000000000000 383 401
38 -12500000000000000 13500000000000000 403 402
38 -10839446558672643 13500000000000000 404 250
38 -10058357377966328 13500000000000000 405 395
38 -9740126807795001 13500000000000000 406 199
38 -9290363815352009 13500000000000000 407 179
38 -7405395007115418 13500000000000000 408 764
38 -6509566948616636 13500000000000000 409 226
38 -2936201166522523 13500000000000000 410 830
38 4641773628672442 13500000000000000 411 190
38 7510233068190503 13500000000000000 412 464
38 7594481103605401 13500000000000000 413 858
38 9757010936908092 13500000000000000 414 340
38 10731696953989751 13500000000000000 415 668
38 12500000000000000 13500000000000000 402 415
39 -12500000000000000 11500000000000000 417 416
39 -7588670266775954 11500000000000000 418 349
39 -3852735397951794 11500000000000000 419 118
39 -577241892542498 11500000000000000 420 443
39 2195201500058648 11500000000000000 421 323
39 3610467216803443 11500000000000000 422 84
39 3724288764739784 11500000000000000 423 297
39 11700904150352973 11500000000000000 424 933
39 12500000000000000 11500000000000000 416 424
40 -12500000000000000 4500000000000000 426 425
40 -4775879456545192 4500000000000000 427 135
40 1434392766882435 4500000000000000 428 78
40 6618053371264081 4500000000000000 429 213
40 9671925974433615 4500000000000000 430 107
40 9996663306859493 4500000000000000 431 100
40 12302298785599737 4500000000000000 432 9
40 12406046580582866 4500000000000000 433 31
40 12500000000000000 4500000000000000 425 433
41 -12500000000000000 5500000000000000 435 434
41 -10340206288278143 5500000000000000 436 293
41 6632993614352514 5500000000000000 437 322
41 7386139786468329 5500000000000000 438 288
41 9589875463284429 5500000000000000 439 39
41 10031212534326637 5500000000000000 440 931
41 12500000000000000 5500000000000000 434 440
42 -12500000000000000 12500000000000000 442 441
42 -9580998153140043 12500000000000000 443 348
42 -1236729803341369 12500000000000000 444 419
42 2737108317234919 12500000000000000 445 324
42 3574125165266055 12500000000000000 446 379
42 3766866259025021 12500000000000000 447 300
42 3818576211816603 12500000000000000 448 87
42 6919362465522756 12500000000000000 449 783
42 6949131306074753 12500000000000000 450 206
42 9539440339810442 12500000000000000 451 329
42 9832506994738855 12500000000000000 452 124
42 12170297178764732 12500000000000000 453 834
42 12500000000000000 12500000000000000 441 453
43 -12500000000000000 14500000000000000 455 454
43 -11764437481122561 14500000000000000 456 774
43 -10680843648596433 14500000000000000 457 589
43 -9985674950068294 14500000000000000 458 499
43 -5950203473866189 14500000000000000 459 887
43 -4213049904175217 14500000000000000 460 512
43 768314178735934 14500000000000000 461 711
43 2968355049458708 14500000000000000 462 661
43 5033171120165993 14500000000000000 463 601
43 8042650752773680 14500000000000000 464 872
43 10048692823440415 14500000000000000 465 411
43 10340834494534175 14500000000000000 466 857
43 11760293434523017 14500000000000000 467 339
43 11762503724757241 14500000000000000 468 524
43 12500000000000000 14500000000000000 454 468
44 -12500000000000000 13500000000000000 470 469
44 -12320395767198725 13500000000000000 471 914
44 -11431094039764313 13500000000000000 472 243
44 -10395200698492778 13500000000000000 473 371
44 -10246753486431524 13500000000000000 474 277
44 -8240261142298534 13500000000000000 475 390
44 -7925105297282343 13500000000000000 476 110
44 -5686000089870559 13500000000000000 477 700
44 -3264950594824116 13500000000000000 478 220
44 -1355597736951902 13500000000000000 479 487
44 -397168049108725 13500000000000000 480 617
44 2254124648482021 13500000000000000 481 826
44 12060485785680154 13500000000000000 482 747
44 12500000000000000 13500000000000000 469 482
45 -12500000000000000 14500000000000000 484 483
45 -11374284852002828 14500000000000000 485 823
45 -7667783243848013 14500000000000000 486 745
45 -5761599827315715 14500000000000000 487 616
45 -4139469167036721 14500000000000000 488 478
45 -1195677553642977 14500000000000000 489 221
45 -1003344017175619 14500000000000000 490 702
45 1991089071260188 14500000000000000 491 358
45 4201657224577094 14500000000000000 492 394
45 5425663876498912 14500000000000000 493 249
45 7497479638949517 14500000000000000 494 152
45 7803654269743008 14500000000000000 495 174
45 12394048278414549 14500000000000000 496 377
45 12500000000000000 14500000000000000 483 496
46 -12500000000000000 15500000000000000 498 497
46 -12034754726946405 15500000000000000 499 772
46 -8918414978020107 15500000000000000 500 457
46 -4991717699914618 15500000000000000 501 842
46 -3431224216510699 15500000000000000 502 866
46 1776494331035701 15500000000000000 503 729
46 1935343251649762 15500000000000000 504 652
46 3953969508648035 15500000000000000 505 899
46 8294848943587980 15500000000000000 506 796
46 8394244867220748 15500000000000000 507 543
46 10067566387400627 15500000000000000 508 554
46 12500000000000000 15500000000000000 497 508
47 -12500000000000000 15500000000000000 510 509
47 -12158640552079058 15500000000000000 511 771
47 -7105318053626962 15500000000000000 512 886
47 -4898409653053327 15500000000000000 513 459
47 -549673554721421 15500000000000000 514 863
47 2199585236924437 15500000000000000 515 726
47 3490557737644815 15500000000000000 516 736
47 4204727290768060 15500000000000000 517 607
47 5270500218791693 15500000000000000 518 646
47 5653558257574156 15500000000000000 519 716
47 11443245455134149 15500000000000000 520 955
47 12500000000000000 15500000000000000 509 520
48 -12500000000000000 15500000000000000 522 521
48 -12338022752215478 15500000000000000 523 924
48 -11457979481230831 15500000000000000 524 338
48 -11455204724928947 15500000000000000 525 467
48 -7410655612777332 15500000000000000 526 669
48 -6920733047404745 15500000000000000 527 691
48 -5789037220494725 15500000000000000 528 627
48 -1674657884521438 15500000000000000 529 878
48 -1140188485051438 15500000000000000 530 954
48 5032654659940404 15500000000000000 531 385
48 5500627028401060 15500000000000000 532 271
48 6042583061184671 15500000000000000 533 366
48 6863526431780381 15500000000000000 534 938
48 7035401881363103 15500000000000000 535 560
48 12500000000000000 15500000000000000 521 535
49 -12500000000000000 16500000000000000 537 536
49 -9626865603153897 16500000000000000 538 268
49 -8084688760660025 16500000000000000 539 719
49 -7059296221933531 16500000000000000 540 740
49 -1161269703280211 16500000000000000 541 611
49 2635506938299128 16500000000000000 542 547
49 5549583458695110 16500000000000000 543 797
49 5610916026730757 16500000000000000 544 506
49 7297391900327284 16500000000000000 545 597
49 12500000000000000 16500000000000000 536 545
50 -12500000000000000 17500000000000000 547 546
50 -11133421885340693 17500000000000000 548 541
50 -8609550139742031 17500000000000000 549 556
50 -7959668153159006 17500000000000000 550 799
50 4883781072195240 17500000000000000 551 1042
50 6368733553266921 17500000000000000 552 999
50 12500000000000000 17500000000000000 546 552
51 -12500000000000000 18500000000000000 554 553
51 -12276093268488225 18500000000000000 555 507
51 -11015772533197949 18500000000000000 556 798
51 -10328259058870395 18500000000000000 557 548
51 -3574775954417264 18500000000000000 558 814
51 1095726578591454 18500000000000000 559 741
51 5843956513787695 18500000000000000 560 939
51 6034456921463229 18500000000000000 561 534
51 7324798025270279 18500000000000000 562 367
51 7403056301627773 18500000000000000 563 387
51 7776285863521653 18500000000000000 564 273
51 8731008524602464 18500000000000000 565 695
51 9321950711399939 18500000000000000 566 882
51 9452816362376017 18500000000000000 567 973
51 11948162851755125 18500000000000000 568 241
51 12500000000000000 18500000000000000 553 568
52 -12500000000000000 5500000000000000 570 569
52 -9379324413231409 5500000000000000 571 262
52 -3879903796402826 5500000000000000 572 72
52 -1300253057339855 5500000000000000 573 128
52 409920239094383 5500000000000000 574 748
52 12500000000000000 5500000000000000 569 574
53 -12500000000000000 10500000000000000 576 575
53 -10828128193439950 10500000000000000 577 64
53 -9311482137941562 10500000000000000 578 308
53 -8353520104522564 10500000000000000 579 94
53 -4913386262158215 10500000000000000 580 161
53 -2323125066141092 10500000000000000 581 335
53 60682492079371 10500000000000000 582 192
53 2967514452671271 10500000000000000 583 687
53 5462689416927600 10500000000000000 584 674
53 6482778938885653 10500000000000000 585 629
53 8046127241548853 10500000000000000 586 292
53 12500000000000000 10500000000000000 575 586
54 -12500000000000000 17500000000000000 588 587
54 -11075160943517894 17500000000000000 589 773
54 -8982581334324041 17500000000000000 590 456
54 -5417575985434330 17500000000000000 591 841
54 -3239889549141154 17500000000000000 592 867
54 -503278925317967 17500000000000000 593 1011
54 2202690010434873 17500000000000000 594 654
54 2386753020396736 17500000000000000 595 731
54 4765510190646444 17500000000000000 596 900
54 6098038176503238 17500000000000000 597 795
54 8725488362401636 17500000000000000 598 544
54 12500000000000000 17500000000000000 587 598
55 -12500000000000000 17500000000000000 600 599
55 -9172808105369147 17500000000000000 601 965
55 -5167716428638348 17500000000000000 602 462
55 -4273660179470231 17500000000000000 603 662
55 -3679216767763825 17500000000000000 604 927
55 -3330055394407517 17500000000000000 605 861
55 -1128286792253458 17500000000000000 606 723
55 1163592730159624 17500000000000000 607 714
55 2178956343278652 17500000000000000 608 516
55 2687855454345442 17500000000000000 609 737
55 3428539989972887 17500000000000000 610 648
55 6493600175897004 17500000000000000 611 1025
55 11844124889711667 17500000000000000 612 540
55 12500000000000000 17500000000000000 599 612
56 -12500000000000000 15500000000000000 614 613
56 -11753221547384521 15500000000000000 615 815
56 -7109639484508617 15500000000000000 616 941
56 -656869742300752 15500000000000000 617 486
56 586753585709353 15500000000000000 618 479
56 2271031539865453 15500000000000000 619 977
56 5608723982380076 15500000000000000 620 363
56 5719548952087205 15500000000000000 621 704
56 10815246681381938 15500000000000000 622 765
56 11582181121774841 15500000000000000 623 182
56 12500000000000000 15500000000000000 613 623
57 -12500000000000000 16500000000000000 625 624
57 -10133396096461639 16500000000000000 626 342
57 -8129733601645050 16500000000000000 627 876
57 -6376051237458171 16500000000000000 628 527
57 -4281066279070907 16500000000000000 629 910
57 -2749123960564726 16500000000000000 630 584
57 -83787359366611 16500000000000000 631 949
57 2009204018975771 16500000000000000 632 676
57 5584585543593769 16500000000000000 633 637
57 7407419764609219 16500000000000000 634 992
57 9092555293367305 16500000000000000 635 853
57 12500000000000000 16500000000000000 624 635
58 -12500000000000000 17500000000000000 637 636
58 -8955662559743381 17500000000000000 638 632
58 -8518706278603351 17500000000000000 639 991
58 -5778184224514254 17500000000000000 640 854
58 -1169431271269052 17500000000000000 641 960
58 -129853382005781 17500000000000000 642 346
58 12098324654556486 17500000000000000 643 296
58 12500000000000000 17500000000000000 636 643
59 -12500000000000000 18500000000000000 645 644
59 -10763384370054974 18500000000000000 646 715
59 -10589370806365897 18500000000000000 647 517
59 -9772349525768700 18500000000000000 648 738
59 -9295226565313638 18500000000000000 649 609
59 -4103891424012459 18500000000000000 650 896
59 -20390871428701 18500000000000000 651 891
59 463514501146790 18500000000000000 652 1013
59 1683207748740989 18500000000000000 653 503
59 2306978326810009 18500000000000000 654 730
59 3010648326967043 18500000000000000 655 593
59 5591214358854999 18500000000000000 656 792
59 11320702332602305 18500000000000000 657 779
59 11707037916068128 18500000000000000 658 759
59 12500000000000000 18500000000000000 644 658
60 -12500000000000000 18500000000000000 660 659
60 -10978565595666511 18500000000000000 661 710
60 -8154514834499506 18500000000000000 662 461
60 -6277111160725768 18500000000000000 663 602
60 -5614272789102346 18500000000000000 664 926
60 -5176067850221801 18500000000000000 665 860
60 -4011484775790063 18500000000000000 666 722
60 -1655990354821234 18500000000000000 667 875
60 -1355333773923702 18500000000000000 668 341
60 -781112865526431 18500000000000000 669 414
60 1137907956607679 18500000000000000 670 525
60 1677164471607881 18500000000000000 671 690
60 1787671381011580 18500000000000000 672 789
60 2736277957302096 18500000000000000 673 908
60 3852522388338109 18500000000000000 674 1035
60 4712800793953127 18500000000000000 675 583
60 8191029942413567 18500000000000000 676 948
60 9930381726834574 18500000000000000 677 631
60 12500000000000000 18500000000000000 659 677
61 -12500000000000000 19500000000000000 679 678
61 -12008279160283451 19500000000000000 680 839
61 -11052636489982568 19500000000000000 681 1049
61 -9993283649141574 19500000000000000 682 1006
61 -9564126144086873 19500000000000000 683 985
61 -8848590308828614 19500000000000000 684 809
61 -6390482305550247 19500000000000000 685 1064
61 -4652403313668930 19500000000000000 686 755
61 3550378928985342 19500000000000000 687 968
61 8581679509002350 19500000000000000 688 582
61 10503432384809008 19500000000000000 689 907
61 11124934725416895 19500000000000000 690 788
61 11309335017384393 19500000000000000 691 670
61 11903035631215992 19500000000000000 692 526
61 12500000000000000 19500000000000000 678 692
62 -12500000000000000 19500000000000000 694 693
62 -12170491913195409 19500000000000000 695 881
62 -10013103372631830 19500000000000000 696 564
62 -9093170991666094 19500000000000000 697 274
62 -8845137942039084 19500000000000000 698 369
62 -7733111802754486 19500000000000000 699 389
62 -7397698852320224 19500000000000000 700 975
62 -2850187628816060 19500000000000000 701 476
62 -614115257885915 19500000000000000 702 962
62 479731686699335 19500000000000000 703 489
62 4093059295307618 19500000000000000 704 362
62 4258529755087640 19500000000000000 705 620
62 6709869364427394 19500000000000000 706 828
62 9449836869144805 19500000000000000 707 767
62 12500000000000000 19500000000000000 693 707
63 -12500000000000000 19500000000000000 709 708
63 -12481922002659096 19500000000000000 710 768
63 -5096062698055641 19500000000000000 711 660
63 -3825540535550226 19500000000000000 712 460
63 -1286620752610736 19500000000000000 713 862
63 766606032817198 19500000000000000 714 724
63 2155766375518571 19500000000000000 715 606
63 3878109011581213 19500000000000000 716 645
63 4219637305095500 19500000000000000 717 518
63 7059844331346931 19500000000000000 718 1027
63 9777666109991317 19500000000000000 719 956
63 10343456386937559 19500000000000000 720 538
63 12500000000000000 19500000000000000 708 720
64 -12500000000000000 20500000000000000 722 721
64 -11336144306088047 20500000000000000 723 665
64 -7493032059857096 20500000000000000 724 605
64 -5965354060039314 20500000000000000 725 713
64 -4962003263949796 20500000000000000 726 735
64 -4351876770060715 20500000000000000 727 514
64 4795855926340060 20500000000000000 728 890
64 5855885442982074 20500000000000000 729 1012
64 6802063214299438 20500000000000000 730 502
64 7475071965483512 20500000000000000 731 653
64 8245312958120010 20500000000000000 732 594
64 10539064241587118 20500000000000000 733 793
64 12500000000000000 20500000000000000 721 733
65 -12500000000000000 21500000000000000 735 734
65 -10492756633753009 21500000000000000 736 725
65 -9200471146755707 21500000000000000 737 515
65 -8176721986010587 21500000000000000 738 608
65 -7613467649020065 21500000000000000 739 647
65 -4679601472048566 21500000000000000 740 1026
65 -1157727406169506 21500000000000000 741 539
65 3646085403082503 21500000000000000 742 558
65 6911573434142922 21500000000000000 743 940
65 12500000000000000 21500000000000000 734 743
66 -12500000000000000 15500000000000000 745 744
66 -12273388083888004 15500000000000000 746 485
66 -10454331819256299 15500000000000000 747 824
66 -808415476435717 15500000000000000 748 481
66 11506590152364319 15500000000000000 749 573
66 12500000000000000 15500000000000000 744 749
67 -12500000000000000 20500000000000000 751 750
67 -12418380837319857 20500000000000000 752 784
67 -8548904637350378 20500000000000000 753 833
67 -3310480916595710 20500000000000000 754 920
67 -2915295231522533 20500000000000000 755 1063
67 -756218802126946 20500000000000000 756 685
67 1319775165478472 20500000000000000 757 811
67 3492225345966474 20500000000000000 758 1033
67 8314614393700755 20500000000000000 759 851
67 9435318340648068 20500000000000000 760 657
67 9797494345116741 20500000000000000 761 780
67 12500000000000000 20500000000000000 750 761
68 -12500000000000000 20500000000000000 763 762
68 -7843968835271442 20500000000000000 764 399
68 -6185655411941378 20500000000000000 765 407
68 -3236145232783809 20500000000000000 766 621
68 -1627185522455267 20500000000000000 767 829
68 942125718571231 20500000000000000 768 706
68 8905662332572389 20500000000000000 769 709
68 12500000000000000 20500000000000000 762 769
69 -12500000000000000 21500000000000000 771 770
69 -10091199714372664 21500000000000000 772 510
69 -7616937093103298 21500000000000000 773 498
69 -6486763045323568 21500000000000000 774 588
69 -4155903328982298 21500000000000000 775 455
69 -1232977313395050 21500000000000000 776 840
69 1797669224766378 21500000000000000 777 1008
69 2391456754684149 21500000000000000 778 1051
69 7027755544271597 21500000000000000 779 850
69 10836220758691827 21500000000000000 780 656
69 11316067905884619 21500000000000000 781 760
69 12500000000000000 21500000000000000 770 781
70 -12500000000000000 21500000000000000 783 782
70 -8740126357784662 21500000000000000 784 448
70 -7121876622237429 21500000000000000 785 751
70 -1202259737687673 21500000000000000 786 1061
70 5492567723150578 21500000000000000 787 922
70 6860775619113524 21500000000000000 788 967
70 12351130617757076 21500000000000000 789 689
70 12494478940607721 21500000000000000 790 671
70 12500000000000000 21500000000000000 782 790
71 -12500000000000000 21500000000000000 792 791
71 -12190218398302394 21500000000000000 793 655
71 -11418700680041757 21500000000000000 794 732
71 -9219251978176623 21500000000000000 795 901
71 -8085677119567669 21500000000000000 796 596
71 -5405715352238789 21500000000000000 797 505
71 -5299042422412679 21500000000000000 798 542
71 -3177972376388276 21500000000000000 799 555
71 -2408703531733772 21500000000000000 800 549
71 5402792202678162 21500000000000000 801 816
71 7349224154572977 21500000000000000 802 943
71 12500000000000000 21500000000000000 791 802
72 -12500000000000000 21500000000000000 804 803
72 -10639149898262858 21500000000000000 805 1058
72 3468159527050164 21500000000000000 806 838
72 3564462706877438 21500000000000000 807 1048
72 4828742047898912 21500000000000000 808 1005
72 5063622771736186 21500000000000000 809 984
72 5856251736080408 21500000000000000 810 683
72 7805417151860935 21500000000000000 811 1065
72 10508814379138764 21500000000000000 812 756
72 12500000000000000 21500000000000000 803 812
73 -12500000000000000 22500000000000000 814 813
73 -9569525342062574 22500000000000000 815 557
73 -7237191969547728 22500000000000000 816 614
73 -2394568529141096 22500000000000000 817 800
73 1154842880713961 22500000000000000 818 944
73 10724359645205948 22500000000000000 819 1020
73 12140038712357632 22500000000000000 820 1057
73 12500000000000000 22500000000000000 813 820
74 -12500000000000000 21500000000000000 822 821
74 -11415957287125865 21500000000000000 823 942
74 -8989988200421508 21500000000000000 824 484
74 -5668737245855696 21500000000000000 825 746
74 -4735803359000795 21500000000000000 826 1019
74 -3357806842695638 21500000000000000 827 480
74 -314364654810468 21500000000000000 828 978
74 3651407086205627 21500000000000000 829 705
74 6501582508941247 21500000000000000 830 766
74 10807160777358510 21500000000000000 831 409
74 12500000000000000 21500000000000000 821 831
75 -12500000000000000 22500000000000000 833 832
75 -10816011451067363 22500000000000000 834 752
75 -10355576102808904 22500000000000000 835 452
75 -5976917053207185 22500000000000000 836 1003
75 -3612220913114629 22500000000000000 837 982
75 -1652052106098513 22500000000000000 838 1047
75 -1493581701095376 22500000000000000 839 805
75 -16904285585414 22500000000000000 840 679
75 3778303587912200 22500000000000000 841 775
75 6418857182761460 22500000000000000 842 590
75 7401672151406025 22500000000000000 843 500
75 9994672315354818 22500000000000000 844 865
75 10587723035124061 22500000000000000 845 889
75 12500000000000000 22500000000000000 832 845
76 -12500000000000000 22500000000000000 847 846
76 -11047289007323785 22500000000000000 848 1009
76 -11023516489991771 22500000000000000 849 869
76 -9990557948343700 22500000000000000 850 1052
76 -5902341529786282 22500000000000000 851 778
76 -2321121167011710 22500000000000000 852 758
76 3058863371145926 22500000000000000 853 993
76 3527158501684747 22500000000000000 854 634
76 6235937109303234 22500000000000000 855 639
76 12500000000000000 22500000000000000 846 855
77 -12500000000000000 23500000000000000 857 856
77 -12147145997517390 23500000000000000 858 465
77 -11832388895305909 23500000000000000 859 412
77 -9933235212124892 23500000000000000 860 874
77 -7285414314197656 23500000000000000 861 664
77 -5848323943345038 23500000000000000 862 604
77 -2935434120661603 23500000000000000 863 712
77 -117395874251107 23500000000000000 864 513
77 5459587213783786 23500000000000000 865 888
77 6091991706141353 23500000000000000 866 843
77 8473994000793435 23500000000000000 867 501
77 9497537025530083 23500000000000000 868 591
77 12089701700474581 23500000000000000 869 1010
77 12118912417608952 23500000000000000 870 848
77 12500000000000000 23500000000000000 856 870
78 -12500000000000000 24500000000000000 872 871
78 -10765174057637286 24500000000000000 873 463
78 -10511539501665009 24500000000000000 874 925
78 -10155638851873104 24500000000000000 875 859
78 -7844691945308923 24500000000000000 876 666
78 -5390959001433208 24500000000000000 877 626
78 -4225934600038285 24500000000000000 878 1037
78 -666559960609892 24500000000000000 879 528
78 -199826018519255 24500000000000000 880 952
78 -155704900073595 24500000000000000 881 1029
78 6005908253486985 24500000000000000 882 694
78 8227599082316687 24500000000000000 883 565
78 8472673614962005 24500000000000000 884 974
78 12500000000000000 24500000000000000 871 884
79 -12500000000000000 24500000000000000 886 885
79 -5551674918437324 24500000000000000 887 511
79 -3915180321094176 24500000000000000 888 458
79 804531680293162 24500000000000000 889 864
79 1187559874280822 24500000000000000 890 844
79 5867641824317238 24500000000000000 891 727
79 6547775923550651 24500000000000000 892 650
79 7003021722393598 24500000000000000 893 1014
79 8223815069631256 24500000000000000 894 898
79 12500000000000000 24500000000000000 885 894
80 -12500000000000000 25500000000000000 896 895
80 -9805097240278805 25500000000000000 897 649
80 -5903535891466218 25500000000000000 898 1015
80 -4795061969286013 25500000000000000 899 893
80 -3315230169062002 25500000000000000 900 504
80 -1667022318377067 25500000000000000 901 595
80 -851801189023356 25500000000000000 902 794
80 3854665019069591 25500000000000000 903 994
80 8710932826221129 25500000000000000 904 1040
80 11875984894017830 25500000000000000 905 959
80 12500000000000000 25500000000000000 895 905
81 -12500000000000000 20500000000000000 907 906
81 -12183783381078076 20500000000000000 908 688
81 -11349444995219078 20500000000000000 909 672
81 -10616131772161672 20500000000000000 910 1036
81 -9823280355549068 20500000000000000 911 628
81 -7272982443263853 20500000000000000 912 989
81 -7116458200461939 20500000000000000 913 951
81 -5755766594804868 20500000000000000 914 1030
81 5425971110779643 20500000000000000 915 470
81 7656270427738064 20500000000000000 916 961
81 8706268356022844 20500000000000000 917 373
81 10379622443309303 20500000000000000 918 353
81 12500000000000000 20500000000000000 906 918
82 -12500000000000000 25500000000000000 920 919
82 -9943324650853133 25500000000000000 921 753
82 -9575840848864676 25500000000000000 922 1062
82 418345120139163 25500000000000000 923 786
82 2655238400558121 25500000000000000 924 966
82 3919340507381787 25500000000000000 925 522
82 7826976656673707 25500000000000000 926 873
82 10804978782453055 25500000000000000 927 663
82 11687312016290628 25500000000000000 928 603
82 12500000000000000 25500000000000000 919 928
83 -12500000000000000 12500000000000000 930 929
83 -10617137482931792 12500000000000000 931 29
83 -7152753986031594 12500000000000000 932 439
83 -3615843804702972 12500000000000000 933 998
83 8553715066054501 12500000000000000 934 423
83 10330940074122841 12500000000000000 935 208
83 12035889580738273 12500000000000000 936 125
83 12500000000000000 12500000000000000 929 936
84 -12500000000000000 23500000000000000 938 937
84 -11048871148713139 23500000000000000 939 533
84 -10775953874844804 23500000000000000 940 559
84 -5696253681780491 23500000000000000 941 742
84 -2095104980508420 23500000000000000 942 615
84 1532091408835396 23500000000000000 943 822
84 2625224339105949 23500000000000000 944 801
84 5551131530890500 23500000000000000 945 817
84 12500000000000000 23500000000000000 937 945
85 -12500000000000000 25500000000000000 947 946
85 -11430680561214048 25500000000000000 948 970
85 -2754921178079746 25500000000000000 949 675
85 -2258214271306858 25500000000000000 950 630
85 1067088735170519 25500000000000000 951 990
85 1385529294992339 25500000000000000 952 912
85 4741738402186345 25500000000000000 953 879
85 4854293190165387 25500000000000000 954 1028
85 4939930998418161 25500000000000000 955 529
85 9120702971937614 25500000000000000 956 519
85 11781083630553658 25500000000000000 957 718
85 12500000000000000 25500000000000000 946 957
86 -12500000000000000 26500000000000000 959 958
86 -9367253288780280 26500000000000000 960 904
86 -7213502255744907 26500000000000000 961 640
86 3903952280228127 26500000000000000 962 915
86 11039541386525649 26500000000000000 963 701
86 12500000000000000 26500000000000000 958 963
87 -12500000000000000 26500000000000000 965 964
87 -9069904312584987 26500000000000000 966 600
87 -2269606392186654 26500000000000000 967 923
87 -663938348452510 26500000000000000 968 787
87 3908254142559932 26500000000000000 969 686
87 8600252255378605 26500000000000000 970 1034
87 11129104347646231 26500000000000000 971 947
87 12500000000000000 26500000000000000 964 971
88 -12500000000000000 25500000000000000 973 972
88 -6331307105401737 25500000000000000 974 566
88 -6082755372072842 25500000000000000 975 883
88 -3599734568258257 25500000000000000 976 699
88 2120152413842750 25500000000000000 977 1018
88 6089463480715776 25500000000000000 978 618
88 8650243426178255 25500000000000000 979 827
88 12500000000000000 25500000000000000 972 979
89 -12500000000000000 23500000000000000 981 980
89 -4719263777405008 23500000000000000 982 1046
89 3948314472805723 23500000000000000 983 836
89 5636544937581701 23500000000000000 984 1004
89 6189105779828330 23500000000000000 985 808
89 6542791160400060 23500000000000000 986 682
89 10494392107005836 23500000000000000 987 1066
89 12500000000000000 23500000000000000 980 987
90 -12500000000000000 26500000000000000 989 988
90 -12376752178858123 26500000000000000 990 911
90 -12043869202254077 26500000000000000 991 950
90 -3330679045835878 26500000000000000 992 638
90 -1769535383881673 26500000000000000 993 633
90 193072832407639 26500000000000000 994 852
90 8362140961460914 26500000000000000 995 902
90 12500000000000000 26500000000000000 988 995
91 -12500000000000000 18500000000000000 997 996
91 -4605997266462003 18500000000000000 998 1041
91 -2326800600480585 18500000000000000 999 932
91 878489421146662 18500000000000000 1000 551
91 8011056388143136 18500000000000000 1001 1055
91 12500000000000000 18500000000000000 996 1001
92 -12500000000000000 26500000000000000 1003 1002
92 -10354540204361682 26500000000000000 1004 835
92 -6573240599182307 26500000000000000 1005 983
92 -6074490120110052 26500000000000000 1006 807
92 -5563775727531000 26500000000000000 1007 681
92 -2107235545951188 26500000000000000 1008 1050
92 -410716913724341 26500000000000000 1009 776
92 1316731464878688 26500000000000000 1010 847
92 1331127356535711 26500000000000000 1011 868
92 4618872248319291 26500000000000000 1012 592
92 7381515972596567 26500000000000000 1013 728
92 7842466526649956 26500000000000000 1014 651
92 8352991031728569 26500000000000000 1015 892
92 9306167835270255 26500000000000000 1016 897
92 12500000000000000 26500000000000000 1002 1016
93 -12500000000000000 26500000000000000 1018 1017
93 -11102630638900147 26500000000000000 1019 976
93 -4588070174105442 26500000000000000 1020 825
93 9164762094536719 26500000000000000 1021 818
93 9869381676579951 26500000000000000 1022 1043
93 11789267582971252 26500000000000000 1023 1056
93 12500000000000000 26500000000000000 1017 1023
94 -12500000000000000 26500000000000000 1025 1024
94 -8975351952096302 26500000000000000 1026 610
94 -6454792333630651 26500000000000000 1027 739
94 -5418456057510050 26500000000000000 1028 717
94 1631567725446171 26500000000000000 1029 953
94 1745949805369590 26500000000000000 1030 880
94 5160670593430218 26500000000000000 1031 913
94 12500000000000000 26500000000000000 1024 1031
95 -12500000000000000 27500000000000000 1033 1032
95 -7677008498858821 27500000000000000 1034 757
95 -2593007252560707 27500000000000000 1035 969
95 7202478289896410 27500000000000000 1036 673
95 8040013008190218 27500000000000000 1037 909
95 11346003654022965 27500000000000000 1038 877
95 12500000000000000 27500000000000000 1032 1038
96 -12500000000000000 27500000000000000 1040 1039
96 -10752211398892342 27500000000000000 1041 903
96 -479191520317040 27500000000000000 1042 997
96 3968792227690628 27500000000000000 1043 550
96 12239751136836491 27500000000000000 1044 1021
96 12500000000000000 27500000000000000 1039 1044
97 -12500000000000000 27500000000000000 1046 1045
97 -10019868054804112 27500000000000000 1047 981
97 172906699703563 27500000000000000 1048 837
97 331962638958327 27500000000000000 1049 806
97 1365827387873857 27500000000000000 1050 680
97 4503000830208044 27500000000000000 1051 1007
97 6416629498822374 27500000000000000 1052 777
97 7964936385908226 27500000000000000 1053 849
97 12500000000000000 27500000000000000 1045 1053
98 -12500000000000000 27500000000000000 1055 1054
98 -5704415063539014 27500000000000000 1056 1000
98 -4811586852075683 27500000000000000 1057 1022
98 -3061313417983935 27500000000000000 1058 819
98 583905105317690 27500000000000000 1059 804
98 12500000000000000 27500000000000000 1054 1059
99 -12500000000000000 26500000000000000 1061 1060
99 -4339784521348519 26500000000000000 1062 785
99 2784280243034716 26500000000000000 1063 921
99 3366704628166504 26500000000000000 1064 754
99 6159452798640466 26500000000000000 1065 684
99 7284436718212750 26500000000000000 1066 810
99 11270660482087277 26500000000000000 1067 986
99 12500000000000000 26500000000000000 1060 1067
